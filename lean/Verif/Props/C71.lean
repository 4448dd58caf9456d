import Verif.Lemmas.QueryLaws
import Verif.Props.C05
import Verif.Props.C08
import Verif.Props.C28
import Verif.Props.C51
import Verif.Props.C53
/-!
# C71: asking for more results extends the list; equal restrictions give equal answers
-/

set_option linter.unusedSectionVars false

namespace Implicit

open Spec

variable {R : Type} [LinearOrder R] [Field R] {f : Nat}

/-! ## Longer and shorter lists -/

/-- **C71** (`recommend`, scores).  Whatever the other arguments: if a query for `N'` results succeeds, so does the query for
any smaller `N ≥ 1`, and each of its rows has the first `N` scores of the longer row. -/
theorem C71_recommend_scores (H : HeapImpl (R × Nat) pairLt) (neginf : R) (m : Factors f R)
    (recalc : SpRows R → Except Err (List (Vec f R))) (userid : Ids) (ui : Option (SpRows R)) (fl : Bool)
    (fi : Option PyFilter) (recalculate : Bool) (items : Option (List Int)) (N N' : Nat) (hN : 1 ≤ N) (hNN : N ≤ N')
    (big : Answer R) (h : recommend H neginf m recalc userid ui N' fl fi recalculate items = .ok big) :
    ∃ small, recommend H neginf m recalc userid ui N fl fi recalculate items = .ok small ∧
      Rowwise (ScorePrefix N) small big := by
  obtain ⟨X, n', fac, its, rows', out', h1, h2, h3, h4, h5, h6⟩ := recommend_ok_inv h
  obtain ⟨n, e3, hn, hnn, htake, hits⟩ := restrictItems_prefix hN hNN h3
  obtain ⟨rows, e4, hf⟩ := topk_prefix h4 hn hnn
  obtain ⟨out, e5, hf'⟩ := remap_prefix hits hf h5
  obtain ⟨small, e6, hr⟩ := packAnswer_rowwise hf' h6
  refine ⟨small, ?_, ?_⟩
  · unfold recommend
    rw [h1, h2, e3]
    simp only [bind, Except.bind]
    rw [e4]
    simp only
    rw [e5]
    exact e6
  · have key : ∀ a b : List (Nat × R), ScorePrefix n a b ∧ b.length = n' → ScorePrefix N a b := by
      rintro a b ⟨hp, hl⟩
      unfold ScorePrefix at hp ⊢
      rw [hp, htake _ (by simpa using hl)]
    exact hr.imp key

theorem zipWith_prefix {k k' n : Nat} {rows rows' : List (List (Nat × R))}
    (h : List.Forall₂ (fun a b => ScorePrefix k a b ∧ b.length = k' ∧ ∀ p ∈ a, p.1 < n) rows rows') :
    ∀ qn : List R, List.Forall₂ (fun a b => ScorePrefix k a b ∧ b.length = k' ∧ ∀ p ∈ a, p.1 < n)
      (List.zipWith (fun row n => row.map fun p : Nat × R => (p.1, p.2 / n)) rows qn)
      (List.zipWith (fun row n => row.map fun p : Nat × R => (p.1, p.2 / n)) rows' qn) := by
  induction h with
  | nil => intro qn; simp
  | @cons a b as bs hab _ ih =>
    intro qn
    cases qn with
    | nil => simp
    | cons c qn =>
      rw [List.zipWith_cons_cons, List.zipWith_cons_cons]
      refine .cons ⟨?_, by simpa using hab.2.1, ?_⟩ (ih qn)
      · have := hab.1
        unfold ScorePrefix at this ⊢
        have e : ∀ l : List (Nat × R), (l.map fun p => (p.1, p.2 / c)).map Prod.snd = (l.map Prod.snd).map (· / c) := by
          intro l; rw [List.map_map, List.map_map]; rfl
        rw [e, e, this, List.map_take]
      · intro p hp
        obtain ⟨q, hq, rfl⟩ := List.mem_map.mp hp
        exact hab.2.2 q hq

theorem similarWith_prefix (H : HeapImpl (R × Nat) pairLt) (neginf : R) (factors : List (Vec f R)) (norms : List R)
    (ids : Ids) (query : List (Vec f R)) (qnorms : List R) (fi : Option PyFilter) (items : Option (List Int))
    (N N' : Nat) (hN : 1 ≤ N) (hNN : N ≤ N') (big : Answer R)
    (h : similarWith H neginf factors norms ids query qnorms N' fi items = .ok big) :
    ∃ small, similarWith H neginf factors norms ids query qnorms N fi items = .ok small ∧
      Rowwise (ScorePrefix N) small big := by
  obtain ⟨fac, ns, its, rows', out', h1, h2, h3, h4⟩ := similarWith_ok_inv h
  obtain ⟨rows, e2, hf⟩ := topk_prefix h2 hN hNN
  obtain ⟨out, e3, hf'⟩ := remap_prefix (restrictSimilar_size h1) (zipWith_prefix hf qnorms) h3
  obtain ⟨small, e4, hr⟩ := packAnswer_rowwise hf' h4
  refine ⟨small, ?_, ?_⟩
  · unfold similarWith similarityScore
    rw [h1]
    simp only [bind, Except.bind]
    rw [e2]
    simp only [pure, Except.pure]
    rw [e3]
    exact e4
  · exact hr.imp fun _ _ h => h.1

/-- **C71** (`similar_items`, `similar_users`, scores).  The same for similarity queries. -/
theorem C71_similar_scores (H : HeapImpl (R × Nat) pairLt) (neginf : R) (factors : List (Vec f R)) (norms : List R)
    (ids : Ids) (fi : Option PyFilter) (items : Option (List Int)) (N N' : Nat) (hN : 1 ≤ N) (hNN : N ≤ N')
    (big : Answer R) (h : similar H neginf factors norms ids N' fi items = .ok big) :
    ∃ small, similar H neginf factors norms ids N fi items = .ok small ∧ Rowwise (ScorePrefix N) small big := by
  unfold similar at h ⊢
  cases h1 : gather factors ids.toList with
  | error e => rw [h1] at h; cases h
  | ok q =>
    cases h2 : gather norms ids.toList with
    | error e => rw [h1, h2] at h; cases h
    | ok n =>
      rw [h1, h2] at h
      exact similarWith_prefix H neginf factors norms ids q n fi items N N' hN hNN big h

/-- **C71** (`similar_items` with `recalculate_item=True`, scores). -/
theorem C71_similar_recalculated_scores (H : HeapImpl (R × Nat) pairLt) (neginf : R) (norm : Vec f R → R) (eps : R)
    (factors : List (Vec f R)) (norms : List R) (recalc : SpRows R → Except Err (List (Vec f R))) (iu : SpRows R)
    (ids : Ids) (fi : Option PyFilter) (items : Option (List Int)) (N N' : Nat) (hN : 1 ≤ N) (hNN : N ≤ N')
    (big : Answer R) (h : similarRecalc H neginf norm eps factors norms recalc iu ids N' fi items = .ok big) :
    ∃ small, similarRecalc H neginf norm eps factors norms recalc iu ids N fi items = .ok small ∧
      Rowwise (ScorePrefix N) small big := by
  unfold similarRecalc at h ⊢
  cases h1 : recalc iu with
  | error e => rw [h1] at h; cases h
  | ok q =>
    rw [h1] at h
    exact similarWith_prefix H neginf factors norms ids q _ fi items N N' hN hNN big h

/-- No two items have the same score for the user factor `x`. -/
def Spec.NoTies (x : Vec f R) (items : List (Vec f R)) : Prop :=
  ∀ (i j : Nat) yi yj, items[i]? = some yi → items[j]? = some yj → dot x yi = dot x yj → i = j

theorem Spec.NoTies.inj {x : Vec f R} {items : List (Vec f R)} (h : NoTies x items) (i j : Nat) (hi : i < items.length)
    (hj : j < items.length) (he : (items[i]?).map (dot x) = (items[j]?).map (dot x)) : i = j := by
  refine h i j _ _ (List.getElem?_eq_getElem hi) (List.getElem?_eq_getElem hj) ?_
  simpa [List.getElem?_eq_getElem hi, List.getElem?_eq_getElem hj] using he

/-- **C71** (`recommend` with filters, ids).  If no two items tie, the eligible items listed for `N` results are the first of
those listed for `N' ≥ N` results. -/
theorem C71_recommend_ids (H : HeapImpl (R × Nat) pairLt) (neginf : R) (m : Factors f R)
    (recalc : SpRows R → Except Err (List (Vec f R)))
    (u : Nat) (x : Vec f R) (hu : m.user[u]? = some x) (hitems : m.item ≠ []) (hties : NoTies x m.item)
    (liked : List (Nat × R)) (hliked : ∀ e ∈ liked, e.1 < m.item.length)
    (fi : Option PyFilter) (hfi : ∀ p, fi = some p → ∀ i ∈ p.ids, i < m.item.length)
    (hlow : ∀ y ∈ m.item, neginf < dot x y) (N N' : Nat) (hN : 1 ≤ N) (hNN : N ≤ N') :
    ∃ good rest good' rest',
      recommend H neginf m recalc (.one u) (some [liked]) N true fi false none = .ok (.one (good ++ rest)) ∧
      recommend H neginf m recalc (.one u) (some [liked]) N' true fi false none = .ok (.one (good' ++ rest')) ∧
      good = good'.take N ∧ (rest ≠ [] → good = good') ∧
      (∀ p ∈ good', (∀ e ∈ liked, e.1 ≠ p.1) ∧ ∀ F, fi = some F → p.1 ∉ F.ids) ∧
      (good'.length < N' → ∀ i, i < m.item.length → (∀ e ∈ liked, e.1 ≠ i) → (∀ F, fi = some F → i ∉ F.ids) →
        i ∈ good'.map Prod.fst) := by
  obtain ⟨g, r, e, hr, -, hall, hlen, hnd⟩ := C04_filter_answer H neginf m recalc u x hu hitems liked hliked fi hfi hlow N hN
  obtain ⟨g', r', e', hr', -⟩ := C04_filter_answer H neginf m recalc u x hu hitems liked hliked fi hfi hlow N'
    (le_trans hN hNN)
  have hp := ranking_prefix hNN hr hr' fun i j hi hj he => hties.inj i j hi.1 hj.1 he
  refine ⟨g, r ++ List.replicate (N - m.item.length) (0, 0), g', r' ++ List.replicate (N' - m.item.length) (0, 0),
    by rw [← List.append_assoc]; exact e, by rw [← List.append_assoc]; exact e', hp, ?_, ?_, ?_⟩
  · intro hne
    have hsub : g'.map Prod.fst ⊆ g.map Prod.fst := by
      intro i hi
      obtain ⟨p, hp', rfl⟩ := List.mem_map.mp hi
      obtain ⟨⟨h1, h2, h3⟩, -⟩ := hr'.mem p hp'
      by_cases hr0 : r = []
      · subst hr0
        have : N - m.item.length ≠ 0 := by
          intro h0; rw [h0] at hne; simp at hne
        refine hr.complete ?_ _ ⟨h1, h2, h3⟩
        simp only [List.append_nil] at hlen
        omega
      · exact hall hr0 _ h1 h2 h3
    have hle := (hr'.distinct.subperm hsub).length_le
    simp only [List.length_map] at hle
    have hle2 : g.length ≤ N := hr.atMost
    rw [hp]
    exact List.take_of_length_le (by omega)
  · intro p hp'
    exact (hr'.mem p hp').1.2
  · intro hlt i h1 h2 h3
    exact hr'.complete hlt i ⟨h1, h2, h3⟩

/-- **C71** (`recommend` with `items`, ids). -/
theorem C71_items_ids (H : HeapImpl (R × Nat) pairLt) (neginf : R) (m : Factors f R)
    (recalc : SpRows R → Except Err (List (Vec f R)))
    (u : Nat) (x : Vec f R) (hu : m.user[u]? = some x) (hties : NoTies x m.item)
    (S : List Int) (hne : S ≠ []) (hnd : S.Nodup) (hS : ∀ i ∈ S, 0 ≤ i ∧ i < m.item.length)
    (fl : Bool) (liked : List (Nat × R)) (hnz : ∀ e ∈ liked, e.2 ≠ 0)
    (hlow : ∀ y ∈ m.item, neginf < dot x y) (N N' : Nat) (hN : 1 ≤ N) (hNN : N ≤ N') :
    ∃ good rest good' rest',
      recommend H neginf m recalc (.one u) (some [liked]) N fl none false (some S) = .ok (.one (good ++ rest)) ∧
      recommend H neginf m recalc (.one u) (some [liked]) N' fl none false (some S) = .ok (.one (good' ++ rest')) ∧
      good = good'.take N ∧ (∀ p ∈ good', (p.1 : Int) ∈ S ∧ (fl = true → ∀ e ∈ liked, e.1 ≠ p.1)) ∧
      (∀ p ∈ rest', fl = true ∧ (∃ e ∈ liked, e.1 = p.1) ∧ p.2 = neginf) := by
  obtain ⟨g, r, e, hr, -⟩ := C05_items_answer H neginf m recalc u x hu S hne hnd hS fl liked hnz hlow N hN
  obtain ⟨g', r', e', hr', hrest, -⟩ := C05_items_answer H neginf m recalc u x hu S hne hnd hS fl liked hnz hlow N'
    (le_trans hN hNN)
  refine ⟨g, r, g', r', e, e', ?_, ?_, fun p hp => (hrest p hp).2⟩
  · have hp := ranking_prefix (show min N S.length ≤ min N' S.length by omega) hr hr' fun i j hi hj he => by
      have h1 := (hS _ hi.1).2
      have h2 := (hS _ hj.1).2
      exact hties.inj i j (by omega) (by omega) he
    rw [hp, List.take_eq_take_iff]
    have := hr'.atMost
    omega
  · intro p hp
    obtain ⟨h1, h2⟩ := (hr'.mem p hp).1
    exact ⟨h1, h2⟩

/-- **C71** (`similar_items`, `similar_users` with a filter, ids). -/
theorem C71_similar_ids [IsStrictOrderedRing R] (H : HeapImpl (R × Nat) pairLt) (neginf : R) (factors : List (Vec f R))
    (norms : List R) (hlen : norms.length = factors.length) (hpos : ∀ n ∈ norms, 0 < n)
    (u : Nat) (x : Vec f R) (hu : factors[u]? = some x) (n : R) (hn : norms[u]? = some n)
    (hties : ∀ (i j : Nat) yi yj ni nj, factors[i]? = some yi → factors[j]? = some yj → norms[i]? = some ni →
      norms[j]? = some nj → dot x yi / ni = dot x yj / nj → i = j)
    (fi : Option PyFilter) (hfi : ∀ p, fi = some p → ∀ i ∈ p.ids, i < factors.length)
    (hlow : ∀ (j : Nat) y nj, factors[j]? = some y → norms[j]? = some nj → neginf < dot x y / nj)
    (N N' : Nat) (hN : 1 ≤ N) (hNN : N ≤ N') :
    ∃ good rest good' rest',
      similar H neginf factors norms (.one u) N fi none = .ok (.one (good ++ rest)) ∧
      similar H neginf factors norms (.one u) N' fi none = .ok (.one (good' ++ rest')) ∧
      good = good'.take N ∧ (∀ p ∈ good', ∀ F, fi = some F → p.1 ∉ F.ids) ∧
      (good'.length < N' → ∀ i, i < factors.length → (∀ F, fi = some F → i ∉ F.ids) → i ∈ good'.map Prod.fst) := by
  obtain ⟨g, r, e, hr, -⟩ := C08_filter_answer H neginf factors norms hlen hpos u x hu n hn fi hfi hlow N hN
  obtain ⟨g', r', e', hr', -⟩ := C08_filter_answer H neginf factors norms hlen hpos u x hu n hn fi hfi hlow N' (le_trans hN hNN)
  refine ⟨g, r ++ List.replicate (N - factors.length) (0, 0), g', r' ++ List.replicate (N' - factors.length) (0, 0),
    by rw [← List.append_assoc]; exact e, by rw [← List.append_assoc]; exact e', ?_, ?_, ?_⟩
  · refine ranking_prefix hNN hr hr' fun i j hi hj he => ?_
    have hi1 := hi.1
    have hj1 := hj.1
    have hnpos := hpos n (List.mem_of_getElem? hn)
    refine hties i j factors[i] factors[j] norms[i] norms[j] (List.getElem?_eq_getElem hi1) (List.getElem?_eq_getElem hj1)
      (List.getElem?_eq_getElem _) (List.getElem?_eq_getElem _) ?_
    have h1 : norms[i]? = some norms[i] := List.getElem?_eq_getElem (by omega)
    have h2 : norms[j]? = some norms[j] := List.getElem?_eq_getElem (by omega)
    simp only [simScore, List.getElem?_eq_getElem hi1, List.getElem?_eq_getElem hj1, h1, h2, Option.some.injEq] at he
    field_simp at he ⊢
    exact he
  · intro p hp
    exact (hr'.mem p hp).1.2
  · intro hlt i h1 h2
    exact hr'.complete hlt i ⟨h1, h2⟩

/-- **C71** (item-item models, `recommend`).  The same scores always; the same items if no two candidates tie. -/
theorem C71_item_item (H : HeapImpl (R × Nat) pairLt) (lowest : R) (sim : SpRows R) (hsim : SquareRows sim)
    (row : List (Nat × R)) (hrow : ∀ e ∈ row, e.1 < sim.length) (N N' : Nat) (hN : 1 ≤ N) (hNN : N ≤ N') :
    ∃ a b, knnRecommendOne H lowest (KnnState.ofSimilarity sim) [row] N false none none =
        (.ok (intRow a), KnnState.ofSimilarity sim) ∧
      knnRecommendOne H lowest (KnnState.ofSimilarity sim) [row] N' false none none =
        (.ok (intRow b), KnnState.ofSimilarity sim) ∧
      ScorePrefix N a b ∧
      ((∀ i j, Reachable sim row i → Reachable sim row j → itemScore sim row i = itemScore sim row j → i = j) →
        a = b.take N) := by
  obtain ⟨a, e, h⟩ := C25_scores H lowest sim hsim row hrow N hN
  obtain ⟨b, e', h'⟩ := C25_scores H lowest sim hsim row hrow N' (le_trans hN hNN)
  refine ⟨a, b, e, e', ranking_prefix_scores hNN h h', fun hinj => ranking_prefix hNN h h' fun i j hi hj he => ?_⟩
  exact hinj i j hi hj (Option.some.inj he)

/-- **C71** (item-item models, `similar_items`).  The whole row is sorted before it is cut: the shorter list is the beginning
of the longer one, ties or not, with every kind of restriction. -/
theorem C71_item_item_similar (A : ArgSort R) (lowest : R) (sim : SpRows R) (i : Int) (N N' : Nat) (hNN : N ≤ N')
    (F S : Option (List Int)) (b : Bool) :
    knnSimilarOne A lowest sim i N F S b = (knnSimilarOne A lowest sim i N' F S b).map (List.take N) := by
  have key : ∀ l, argsortDesc A N l = (argsortDesc A N' l).take N := by
    intro l
    unfold argsortDesc
    rw [List.take_take, Nat.min_eq_left hNN]
  unfold knnSimilarOne
  cases F with
  | some F =>
    cases S with
    | some S => rfl
    | none =>
      simp only
      split_ifs
      · simp [Except.map]
      · rfl
      all_goals simp only [Except.map, key]
  | none =>
    cases S with
    | some S =>
      cases b <;>
      · simp only
        split_ifs <;> simp_all [Except.map]
    | none =>
      simp only
      split_ifs
      · simp [Except.map]
      · rfl
      all_goals simp only [Except.map, key]

/-! ## Restrictions -/

theorem assignAt_error (v : R) : ∀ (is : List Nat) (row : List R), (∃ i ∈ is, row.length ≤ i) →
    assignAt v is row = .error .indexError
  | [], _, h => by simp at h
  | i :: is, row, h => by
    unfold assignAt
    split_ifs with hi
    · refine assignAt_error v is _ ?_
      obtain ⟨j, hj, hl⟩ := h
      rcases List.mem_cons.mp hj with rfl | hj
      · omega
      · exact ⟨j, hj, by simpa using hl⟩
    · rfl

theorem assignAt_sameMembers (v : R) {l l' : List Nat} (h : ∀ i, i ∈ l ↔ i ∈ l') (row : List R) :
    assignAt v l row = assignAt v l' row := by
  by_cases hb : ∃ i ∈ l, row.length ≤ i
  · rw [assignAt_error v l row hb]
    obtain ⟨i, hi, hl⟩ := hb
    rw [assignAt_error v l' row ⟨i, (h i).mp hi, hl⟩]
  · have h1 : ∀ i ∈ l, i < row.length := by
      intro i hi
      by_contra hc
      exact hb ⟨i, hi, by omega⟩
    rw [assignAt_ok v l row h1, assignAt_ok v l' row fun i hi => h1 i ((h i).mpr hi)]
    congr 1
    unfold mask
    congr 1
    funext j s
    simp only [h]

theorem topk_sameFilter (H : HeapImpl (R × Nat) pairLt) (neginf : R) (items query : List (Vec f R)) (k : Nat)
    (norms : Option (List R)) (fq : Option (List (List Nat))) {l l' : List Nat} (h : ∀ i, i ∈ l ↔ i ∈ l') :
    topk H neginf items query k norms fq (some l) = topk H neginf items query k norms fq (some l') := by
  have hm : ∀ idx q, maskedRow neginf items norms fq (some l) idx q = maskedRow neginf items norms fq (some l') idx q := by
    intro idx q
    unfold maskedRow
    simp only [assignAt_sameMembers neginf h]
  unfold topk topkFlat topkBatches topkBatch
  simp only [hm]

/-- **C71** (`filter_items`).  Order and repetitions in `filter_items` do not matter, nor whether it is a list or an array:
same answer or same error. -/
theorem C71_filter_order (H : HeapImpl (R × Nat) pairLt) (neginf : R) (m : Factors f R)
    (recalc : SpRows R → Except Err (List (Vec f R))) (userid : Ids) (ui : Option (SpRows R)) (fl : Bool)
    (F F' : PyFilter) (h : ∀ i, i ∈ F.ids ↔ i ∈ F'.ids) (recalculate : Bool) (N : Nat) :
    recommend H neginf m recalc userid ui N fl (some F) recalculate none =
      recommend H neginf m recalc userid ui N fl (some F') recalculate none := by
  unfold recommend restrictItems
  simp only [Option.map_some, topk_sameFilter H neginf _ _ _ _ _ h]

/-- **C71** the same for `similar_items` and `similar_users`. -/
theorem C71_similar_filter_order (H : HeapImpl (R × Nat) pairLt) (neginf : R) (factors : List (Vec f R)) (norms : List R)
    (ids : Ids) (F F' : PyFilter) (h : ∀ i, i ∈ F.ids ↔ i ∈ F'.ids) (N : Nat) :
    similar H neginf factors norms ids N (some F) none = similar H neginf factors norms ids N (some F') none := by
  unfold similar similarWith similarityScore restrictSimilar
  simp only [Option.map_some, topk_sameFilter H neginf _ _ _ _ _ h]

/-- **C71** (`items`).  The order of `items` does not matter in `recommend`: same answer or same error. -/
theorem C71_items_order (H : HeapImpl (R × Nat) pairLt) (neginf : R) (m : Factors f R)
    (recalc : SpRows R → Except Err (List (Vec f R))) (userid : Ids) (ui : Option (SpRows R)) (fl : Bool)
    (fi : Option PyFilter) (S S' : List Int) (h : S.Perm S') (recalculate : Bool) (N : Nat) :
    recommend H neginf m recalc userid ui N fl fi recalculate (some S) =
      recommend H neginf m recalc userid ui N fl fi recalculate (some S') := by
  have e : S.insertionSort (· ≤ ·) = S'.insertionSort (· ≤ ·) := by
    refine List.Perm.eq_of_pairwise (le := (· ≤ ·)) (fun a b _ _ h1 h2 => le_antisymm h1 h2)
      (List.pairwise_insertionSort _ _) (List.pairwise_insertionSort _ _) ?_
    exact (List.perm_insertionSort _ _).trans (h.trans (List.perm_insertionSort _ _).symm)
  unfold recommend restrictItems
  simp only [e, h.length_eq]

/-- All item ids as the array `np.arange(n)`. -/
def Spec.allIds (n : Nat) : List Int := (List.range n).map fun i : Nat => (i : Int)

theorem allIds_sorted (n : Nat) : (allIds n).insertionSort (· ≤ ·) = allIds n := by
  apply List.Pairwise.insertionSort_eq
  unfold allIds
  rw [List.pairwise_map]
  exact List.pairwise_le_range.imp fun h => by exact_mod_cast h

theorem gatherInt_append_range {α : Type} (l : List α) : ∀ (k : Nat), k ≤ l.length →
    gatherInt l ((List.range' (l.length - k) k).map fun i : Nat => (i : Int)) = .ok (l.drop (l.length - k))
  | 0, _ => by simp [gatherInt]
  | k + 1, h => by
    rw [List.range'_succ, List.map_cons]
    have e : l.length - (k + 1) + 1 = l.length - k := by omega
    rw [e]
    unfold gatherInt
    have hp : pyIndex l ((l.length - (k + 1) : Nat) : Int) = .ok (l[l.length - (k + 1)]'(by omega)) := by
      unfold pyIndex
      simp only [Int.toNat_natCast]
      have h0 : ¬ (((l.length - (k + 1) : Nat) : Int) < 0) := by omega
      simp only [if_neg h0, Int.toNat_natCast, List.getElem?_eq_getElem (show l.length - (k + 1) < l.length by omega)]
    rw [hp, gatherInt_append_range l k (by omega)]
    show Except.ok _ = _
    rw [List.drop_eq_getElem_cons (show l.length - (k + 1) < l.length by omega), e]

theorem gatherInt_all {α : Type} (l : List α) : gatherInt l (allIds l.length) = .ok l := by
  have := gatherInt_append_range l l.length le_rfl
  rw [Nat.sub_self, List.drop_zero, ← List.range_eq_range'] at this
  exact this

theorem searchsorted_range {n c : Nat} (h : c ≤ n) : searchsorted (List.range n) c = c := by
  unfold searchsorted
  induction n with
  | zero => simp; omega
  | succ n ih =>
    rw [List.range_succ, List.countP_append]
    by_cases hc : c ≤ n
    · rw [ih hc]; simp; omega
    · have : c = n + 1 := by omega
      subst this
      have : (List.range n).countP (fun x => decide (x < n + 1)) = n := by
        rw [List.countP_eq_length_filter, List.filter_eq_self.mpr]
        · simp
        · intro a ha
          have := List.mem_range.mp ha
          simp; omega
      rw [this]; simp

theorem filterItemsRow_all {n : Nat} {row : List (Nat × R)} (h : ∀ e ∈ row, e.1 < n ∧ e.2 ≠ 0) :
    filterItemsRow (List.range n) row = row := by
  unfold filterItemsRow
  have hm : (row.map fun e =>
      let position := min (searchsorted (List.range n) e.1) ((List.range n).length - 1)
      if (List.range n)[position]? = some e.1 then (position, e.2) else (position, 0)) = row := by
    conv_rhs => rw [← List.map_id row]
    apply List.map_congr_left
    intro e he
    have h1 := (h e he).1
    simp only [searchsorted_range h1.le, List.length_range, id]
    have : min e.1 (n - 1) = e.1 := by omega
    rw [this, List.getElem?_range h1, if_pos rfl]
  rw [hm, List.filter_eq_self]
  intro e he
  simpa using (h e he).2

theorem remapRow_all {n : Nat} {row : List (Nat × R)} (h : ∀ p ∈ row, p.1 < n) :
    remapRow (some (List.range n)) row = .ok row := by
  unfold remapRow
  simp only
  have := mapM_ok_of (g := fun p : Nat × R => match (List.range n)[p.1]? with
      | none => Except.error Err.indexError
      | some i => .ok (i, p.2)) (h := id) (l := row) (fun p hp => by
    rw [List.getElem?_range (h p hp)]; rfl)
  rw [List.map_id] at this
  exact this

/-- **C71** (`items` with every id).  Restricting `recommend` to all items changes nothing, for up to as many results as there are
items and stored interactions that are not explicit zeros. -/
theorem C71_all_items (H : HeapImpl (R × Nat) pairLt) (neginf : R) (m : Factors f R) (hne : m.item ≠ [])
    (recalc : SpRows R → Except Err (List (Vec f R))) (userid : Ids) (ui : Option (SpRows R)) (fl : Bool)
    (hui : fl = true → ∀ rows, ui = some rows → ∀ row ∈ rows, ∀ e ∈ row, e.1 < m.item.length ∧ e.2 ≠ 0)
    (recalculate : Bool) (N : Nat) (hN : N ≤ m.item.length) :
    recommend H neginf m recalc userid ui N fl none recalculate (some (allIds m.item.length)) =
      recommend H neginf m recalc userid ui N fl none recalculate none := by
  have hpos := List.length_pos_iff.mpr hne
  have hres : restrictItems m N none (some (allIds m.item.length)) =
      .ok (N, m.item, some (List.range m.item.length)) := by
    unfold restrictItems
    simp only [truthyOpt, bind, Except.bind, Bool.false_eq_true, if_false, pure, Except.pure]
    rw [allIds_sorted, gatherInt_all]
    have hc : checkItems m.item.length (allIds m.item.length) = .ok () := by
      unfold checkItems
      rw [if_neg (by simp [allIds]; omega), if_neg]
      simp only [allIds, Bool.or_eq_true, List.any_map, List.any_eq_true, not_or, not_exists, not_and]
      constructor
      · intro i hi
        have := List.mem_range.mp hi
        simp; omega
      · intro i _
        simp
    simp only [hc]
    have h1 : min N (allIds m.item.length).length = N := by simp [allIds]; omega
    have h2 : (allIds m.item.length).map Int.toNat = List.range m.item.length := by
      unfold allIds
      rw [List.map_map]
      conv_rhs => rw [← List.map_id (List.range m.item.length)]
      apply List.map_congr_left
      intro i _; simp
    rw [h1, h2]
  have hliked : likedPositions fl ui (some (List.range m.item.length)) = likedPositions fl ui none := by
    unfold likedPositions
    cases fl with
    | false => rfl
    | true =>
      cases ui with
      | none => rfl
      | some rows =>
        simp only [if_true, Option.map_some]
        congr 1
        apply List.map_congr_left
        intro row hrow
        rw [filterItemsRow_all (hui rfl rows rfl row hrow)]
  unfold recommend
  rw [hres]
  have hres' : restrictItems m N none none = .ok (N, m.item, none) := rfl
  rw [hres']
  simp only [bind, Except.bind]
  rw [hliked]
  cases h1 : checkUserItems userid ui (fl || recalculate) with
  | error e => rfl
  | ok _ =>
    simp only
    cases h2 : userFactor m recalc userid ui recalculate with
    | error e => rfl
    | ok X =>
      simp only
      cases h3 : topk H neginf m.item X N none (likedPositions fl ui none) (Option.map PyFilter.ids none) with
      | error e => rfl
      | ok rows =>
        simp only
        have hall : ∀ row ∈ rows, ∀ p ∈ row, p.1 < m.item.length := by
          by_cases hX : X = []
          · subst hX
            rw [topk_nil] at h3; cases h3; simp
          · have hk := (topk_ok_inv h3 hX).1
            obtain ⟨rows2, e, hf⟩ := topk_prefix h3 hk le_rfl
            rw [h3] at e
            cases e
            intro row hrow
            obtain ⟨i, hi⟩ := List.mem_iff_getElem?.mp hrow
            have hil := (List.getElem?_eq_some_iff.mp hi).1
            have := List.forall₂_iff_get.mp hf
            have h := this.2 i hil hil
            have e2 : rows.get ⟨i, hil⟩ = row := (List.getElem?_eq_some_iff.mp hi).2
            rw [e2] at h
            exact h.2.2
        have e1 : rows.mapM (remapRow (some (List.range m.item.length))) = .ok rows := by
          have := mapM_ok_of (g := remapRow (R := R) (some (List.range m.item.length))) (h := id) (l := rows)
            (fun row hrow => remapRow_all (hall row hrow))
          rwa [List.map_id] at this
        have e2 : rows.mapM (remapRow (R := R) none) = .ok rows := by
          have := mapM_ok_of (g := remapRow (R := R) none) (h := id) (l := rows) (fun row _ => rfl)
          rwa [List.map_id] at this
        rw [e1, e2]

/-- **C71** (`filter_items` against `items`).  Filtering `F` and restricting to the ids outside `F` give the same scores; without ties
also the same items, wherever the score is not the lowest value. -/
theorem C71_complement (H : HeapImpl (R × Nat) pairLt) (neginf : R) (m : Factors f R)
    (recalc : SpRows R → Except Err (List (Vec f R)))
    (u : Nat) (x : Vec f R) (hu : m.user[u]? = some x)
    (liked : List (Nat × R)) (hliked : ∀ e ∈ liked, e.1 < m.item.length ∧ e.2 ≠ 0)
    (F : PyFilter) (hF : ∀ i ∈ F.ids, i < m.item.length) (S : List Int) (hne : S ≠ []) (hnd : S.Nodup)
    (hS : ∀ i : Int, i ∈ S ↔ 0 ≤ i ∧ i < m.item.length ∧ i.toNat ∉ F.ids)
    (hlow : ∀ y ∈ m.item, neginf < dot x y) (N : Nat) (hN : 1 ≤ N) (hNS : N ≤ S.length) :
    ∃ a b, recommend H neginf m recalc (.one u) (some [liked]) N true (some F) false none = .ok (.one a) ∧
      recommend H neginf m recalc (.one u) (some [liked]) N true none false (some S) = .ok (.one b) ∧
      a.map Prod.snd = b.map Prod.snd ∧
      (NoTies x m.item → ∀ (j : Nat) p, a[j]? = some p → p.2 ≠ neginf → b[j]? = some p) := by
  have hitems : m.item ≠ [] := by
    obtain ⟨i, hi⟩ := List.exists_mem_of_ne_nil _ hne
    have := (hS i).mp hi
    intro h; rw [h] at this; simp at this; omega
  have hSlen : S.length ≤ m.item.length := by
    have hsub : S ⊆ allIds m.item.length := by
      intro i hi
      obtain ⟨h1, h2, -⟩ := (hS i).mp hi
      unfold allIds
      exact List.mem_map.mpr ⟨i.toNat, List.mem_range.mpr (by omega), by omega⟩
    have := (hnd.subperm hsub).length_le
    simpa [allIds] using this
  obtain ⟨g, r, e, hr, hrest, -, hlen, -⟩ := C04_filter_answer H neginf m recalc u x hu hitems liked
    (fun e he => (hliked e he).1) (some F) (by intro p hp; cases hp; exact hF) hlow N hN
  obtain ⟨g', r', e', hr', hrest', -, hlen', -⟩ := C05_items_answer H neginf m recalc u x hu S hne hnd
    (fun i hi => ⟨((hS i).mp hi).1, ((hS i).mp hi).2.1⟩) true liked (fun e he => (hliked e he).2) hlow N hN
  have hE : (fun i : Nat => (i : Int) ∈ S ∧ notLiked true liked i) =
      fun i => i < m.item.length ∧ (∀ e ∈ liked, e.1 ≠ i) ∧ ∀ p, some F = some p → i ∉ p.ids := by
    funext i
    simp only [hS, notLiked, Option.some.injEq, forall_eq', Int.toNat_natCast, eq_iff_iff]
    constructor
    · rintro ⟨⟨-, h1, h2⟩, h3⟩
      exact ⟨by omega, h3 trivial, h2⟩
    · rintro ⟨h1, h2, h3⟩
      exact ⟨⟨by omega, by omega, h3⟩, fun _ => h2⟩
  rw [hE, Nat.min_eq_left hNS] at hr'
  rw [Nat.min_eq_left hNS] at hlen'
  rw [Nat.min_eq_left (by omega)] at hlen
  have hpad : N - m.item.length = 0 := by omega
  rw [hpad, List.replicate_zero, List.append_nil] at e
  have hgl := ranking_length hr hr'
  have hgs := ranking_scores hr hr' hgl
  have hconst : ∀ l : List (Nat × R), (∀ p ∈ l, p.2 = neginf) → l.map Prod.snd = List.replicate l.length neginf := by
    intro l hl
    rw [List.eq_replicate_iff]
    refine ⟨by simp, ?_⟩
    intro s hs
    obtain ⟨p, hp, rfl⟩ := List.mem_map.mp hs
    exact hl p hp
  refine ⟨g ++ r, g' ++ r', e, e', ?_, ?_⟩
  · rw [List.map_append, List.map_append, hgs, hconst r fun p hp => (hrest p hp).2,
      hconst r' fun p hp => (hrest' p hp).2.2.2]
    simp only [List.length_append] at hlen hlen'
    congr 2
    omega
  · intro hties j p hj hp
    have hgg := ranking_unique hr hr' hgl fun i j hi hj he => hties.inj i j hi.1 hj.1 he
    by_cases hjl : j < g.length
    · rw [List.getElem?_append_left hjl] at hj
      rw [List.getElem?_append_left (by omega), ← hgg]
      exact hj
    · rw [List.getElem?_append_right (by omega)] at hj
      exact absurd (hrest p (List.mem_of_getElem? hj)).2 hp

/-! ## The device -/

/-- **C71** (`recommend` on the GPU; partial: as long as there are enough eligible items, see C53).  The same scores always, the same
items without ties. -/
theorem C71_gpu_partial (env : GpuEnv R) (hsel : env.Selects) (m : Factors f R)
    (solve : SpRows R → Except Err (List (Vec f R))) (u : Nat) (x : Vec f R) (hu : m.user[u]? = some x)
    (liked : List (Nat × R)) (hliked : ∀ e ∈ liked, e.1 < m.item.length)
    (F : List Nat) (hne : F ≠ []) (hF : ∀ i ∈ F, i < m.item.length)
    (hlow : ∀ y ∈ m.item, env.low < dot x y) (N N' : Nat) (hN : 1 ≤ N) (hNN : N ≤ N')
    (hcard : N' ≤ ((List.range m.item.length).filter
      (fun i => decide (i ∉ liked.map Prod.fst ∧ i ∉ F))).length)
    (hfit : N' * 32 + m.item.length * 4 ≤ min env.maxMem (2 ^ 32)) :
    ∃ a b, gpuRecommend env m solve (.one u) (some [liked]) N true (some (.array F)) false none = .ok (.one a) ∧
      gpuRecommend env m solve (.one u) (some [liked]) N' true (some (.array F)) false none = .ok (.one b) ∧
      ScorePrefix N a b ∧ (NoTies x m.item → a = b.take N) := by
  have hN' : N' ≤ m.item.length := le_trans hcard (by
    simpa using List.length_filter_le (fun i => decide (i ∉ liked.map Prod.fst ∧ i ∉ F)) (List.range m.item.length))
  have hp : ∀ k, 1 ≤ k → k ≤ N' → ∃ a,
      gpuRecommend env m solve (.one u) (some [liked]) k true (some (.array F)) false none = .ok (.one a) ∧
      IsRanking k (fun i => i < m.item.length ∧ i ∉ liked.map Prod.fst ∧ i ∉ F) (fun i => (m.item[i]?).map (dot x)) a := by
    intro k hk hkN
    obtain ⟨a, e, h⟩ := C53_recommend_one_partial env hsel m solve u x hu liked true (fun _ => hliked)
      (some (.array F)) (by intro p hp; cases hp; exact hne) (by intro p hp; cases hp; exact hF) hlow k hk
      (le_trans hkN hN') (le_trans (by omega) hfit)
    have hE : (fun i => i < m.item.length ∧ (true = true → ∀ e ∈ liked, e.1 ≠ i) ∧
        ∀ p, some (PyFilter.array F) = some p → i ∉ p.ids) =
        (fun i => i < m.item.length ∧ i ∉ liked.map Prod.fst ∧ i ∉ F) := by
      funext i
      simp only [Option.some.injEq, forall_eq', PyFilter.ids, List.mem_map, not_exists, not_and, forall_const]
    rw [hE] at h
    refine ⟨a, e, padded_full h (l := (List.range m.item.length).filter
      (fun i => decide (i ∉ liked.map Prod.fst ∧ i ∉ F))) (List.nodup_range.filter _) ?_ (le_trans hkN hcard)⟩
    intro i hi
    obtain ⟨h1, h2⟩ := List.mem_filter.mp hi
    exact ⟨List.mem_range.mp h1, by simpa using h2⟩
  obtain ⟨a, e, h⟩ := hp N hN hNN
  obtain ⟨b, e', h'⟩ := hp N' (le_trans hN hNN) le_rfl
  exact ⟨a, b, e, e', ranking_prefix_scores hNN h h',
    fun ht => ranking_prefix hNN h h' fun i j hi hj he => ht.inj i j hi.1 hj.1 he⟩

/-! ## Where the code disagrees -/

/-- **C71** is violated for ties: of two items with equal factors, `recommend` with `N = 1` returns item 0, with `N = 2` it lists item 1
first.  With three tied items and one better one, `N = 3` lists items 3, 2, 0, while `N = 4` lists 3, 4, 2, 0.  For every heap. -/
theorem C71_ties_violated (H : HeapImpl (Rat × Nat) pairLt) :
    (recommend H (-1000) (⟨[![1]], [![1], ![1]]⟩ : Factors 1 Rat) noRecalc (.one 0) none 1 false none false none =
        .ok (.one [(0, 1)]) ∧
      recommend H (-1000) (⟨[![1]], [![1], ![1]]⟩ : Factors 1 Rat) noRecalc (.one 0) none 2 false none false none =
        .ok (.one [(1, 1), (0, 1)])) ∧
    recommend H (-1000) (⟨[![1]], [![5], ![1], ![5], ![7], ![5]]⟩ : Factors 1 Rat) noRecalc (.one 0) none 3 false none false none =
        .ok (.one [(3, 7), (2, 5), (0, 5)]) ∧
      recommend H (-1000) (⟨[![1]], [![5], ![1], ![5], ![7], ![5]]⟩ : Factors 1 Rat) noRecalc (.one 0) none 4 false none false none =
        .ok (.one [(3, 7), (4, 5), (2, 5), (0, 5)]) := by
  have hsel : ∀ k s, sel H k s = sel (insertionHeap (R := Rat)) k s := by
    intro k s; unfold sel; rw [C01_select_heap_independent H insertionHeap]
  refine ⟨⟨?_, ?_⟩, ?_, ?_⟩
  · refine recommend_one H _ (s := [1, 1]) (x := ![1]) (N' := 1) (fac := [![1], ![1]]) (its := none) rfl (userFactor_stored rfl)
      rfl (by omega) (by simp) (by decide +kernel) ?_
    rw [hsel]; decide +kernel
  · refine recommend_one H _ (s := [1, 1]) (x := ![1]) (N' := 2) (fac := [![1], ![1]]) (its := none) rfl (userFactor_stored rfl)
      rfl (by omega) (by simp) (by decide +kernel) ?_
    rw [hsel]; decide +kernel
  · refine recommend_one H _ (s := [5, 1, 5, 7, 5]) (x := ![1]) (N' := 3) (fac := [![5], ![1], ![5], ![7], ![5]]) (its := none) rfl
      (userFactor_stored rfl) rfl (by omega) (by simp) (by decide +kernel) ?_
    rw [hsel]; decide +kernel
  · refine recommend_one H _ (s := [5, 1, 5, 7, 5]) (x := ![1]) (N' := 4) (fac := [![5], ![1], ![5], ![7], ![5]]) (its := none) rfl
      (userFactor_stored rfl) rfl (by omega) (by simp) (by decide +kernel) ?_
    rw [hsel]; decide +kernel

/-- **C71** is violated for `items` in `similar_items` with ties: the order of `items` decides which of two equally similar items is
returned.  For every heap. -/
theorem C71_similar_items_order_violated (H : HeapImpl (Rat × Nat) pairLt) :
    similar H (-1000) [![1], ![1], ![1]] [1, 1, 1] (.one 0) 1 none (some [1, 2]) = .ok (.one [(1, 1)]) ∧
    similar H (-1000) [![1], ![1], ![1]] [1, 1, 1] (.one 0) 1 none (some [2, 1]) = .ok (.one [(2, 1)]) := by
  have hsel : ∀ k s, sel H k s = sel (insertionHeap (R := Rat)) k s := by
    intro k s; unfold sel; rw [C01_select_heap_independent H insertionHeap]
  constructor
  · show similarWith H (-1000) [![1], ![1], ![1]] [1, 1, 1] (.one 0) [![1]] [1] 1 none (some [1, 2]) = _
    refine similarWith_one H _ (s := [1, 1]) (x := ![1]) (n := 1) (fac := [![1], ![1]]) (ns := [1, 1]) (its := some [1, 2])
      (by decide +kernel) (by omega) (by simp) (by decide +kernel) ?_
    unfold simRow; rw [hsel]; decide +kernel
  · show similarWith H (-1000) [![1], ![1], ![1]] [1, 1, 1] (.one 0) [![1]] [1] 1 none (some [2, 1]) = _
    refine similarWith_one H _ (s := [1, 1]) (x := ![1]) (n := 1) (fac := [![1], ![1]]) (ns := [1, 1]) (its := some [2, 1])
      (by decide +kernel) (by omega) (by simp) (by decide +kernel) ?_
    unfold simRow; rw [hsel]; decide +kernel

/-! ## Examples -/

/-- Three items without ties, item 0 filtered: the answers for one and two results, and the answer restricted to the other items. -/
example :
    let m : Factors 1 Rat := ⟨[![1]], [![4], ![2], ![3]]⟩
    recommend insertionHeap (-1000) m noRecalc (.one 0) (some [[]]) 1 true (some (.list [0])) false none = .ok (.one [(2, 3)]) ∧
    recommend insertionHeap (-1000) m noRecalc (.one 0) (some [[]]) 2 true (some (.list [0, 0])) false none =
      .ok (.one [(2, 3), (1, 2)]) ∧
    recommend insertionHeap (-1000) m noRecalc (.one 0) (some [[]]) 2 true none false (some [2, 1]) = .ok (.one [(2, 3), (1, 2)]) := by
  decide +kernel

/-- The premises of the theorems about ties hold for these items. -/
example : Spec.NoTies (R := Rat) ![1] [![4], ![2], ![3]] := by
  intro i j yi yj hi hj he
  rcases i with _ | _ | _ | i <;> rcases j with _ | _ | _ | j <;> simp at hi hj <;> subst hi <;> subst hj <;>
    first | rfl | (exact absurd he (by decide +kernel))

/-- Two items, batch of two users: both rows are extended. -/
example :
    let m : Factors 1 Rat := ⟨[![1], ![-1]], [![4], ![2], ![3]]⟩
    recommend insertionHeap (-1000) m noRecalc (.many [0, 1]) none 1 false none false none = .ok (.many [[(0, 4)], [(1, -2)]]) ∧
    recommend insertionHeap (-1000) m noRecalc (.many [0, 1]) none 2 false none false (some (Spec.allIds 3)) =
      .ok (.many [[(0, 4), (2, 3)], [(1, -2), (2, -3)]]) := by
  decide +kernel

/-- Item-item similarity lists. -/
example :
    let sim : SpRows Rat := [[(0, 4), (1, 2)], [(0, 2), (1, 3), (2, 1)], [(1, 1), (2, 5)]]
    (knnRecommendOne insertionHeap (-1000) (KnnState.ofSimilarity sim) [[(0, 1), (1, 1)]] 1 false none none).1 = .ok [(0, 6)] ∧
    (knnRecommendOne insertionHeap (-1000) (KnnState.ofSimilarity sim) [[(0, 1), (1, 1)]] 3 false none none).1 =
      .ok [(0, 6), (1, 5), (2, 1)] := by
  decide +kernel

end Implicit
