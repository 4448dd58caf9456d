import Verif.Lemmas.Ranking
import Verif.Model.Ann
import Verif.Props.C43
import Verif.Props.C10

/-!
# C42 — approximate models honour filters and N for every index answer

`search` is arbitrary in the soundness theorems.  In the exactness theorems the index is assumed exact:
asked for `n` results it returns a ranking of the `n` best items (after converting what it returns to
scores).
-/

set_option linter.unusedSectionVars false

namespace Implicit

variable {R : Type}

theorem mem_filterResults {ids : List Nat} {N : Nat} {row : List (Int × R)} {p : Int × R}
    (h : p ∈ filterResults ids N row) : p ∈ row ∧ ∀ i ∈ ids, p.1 ≠ (i : Int) := by
  have := List.mem_filter.mp (List.mem_of_mem_take h)
  refine ⟨this.1, fun i hi he => ?_⟩
  have h2 := this.2
  rw [he] at h2
  simp only [Bool.not_eq_true', List.contains_eq_mem, decide_eq_false_iff_not, List.mem_map] at h2
  exact h2 ⟨i, hi, rfl⟩

theorem length_filterResults (ids : List Nat) (N : Nat) (row : List (Int × R)) :
    (filterResults ids N row).length ≤ N := by
  unfold filterResults
  simp

theorem filterResults_intRow (ids : List Nat) (N : Nat) (row : List (Nat × R)) :
    filterResults ids N (intRow row) = intRow ((row.filter fun p => !ids.contains p.1).take N) := by
  unfold filterResults intRow
  rw [List.filter_map, List.map_take]
  congr 2
  apply List.filter_congr
  intro p _
  simp [List.contains_eq_mem]

theorem filterResults_map (g : R → R) (ids : List Nat) (N : Nat) (row : List (Int × R)) :
    (filterResults ids N row).map (fun p => (p.1, g p.2)) =
      filterResults ids N (row.map fun p => (p.1, g p.2)) := by
  unfold filterResults
  rw [List.filter_map, List.map_take]
  rfl

/-- The index returns at most as many results as it is asked for. -/
def AtMost {Q : Type} (search : Q → Nat → List (Int × R)) : Prop := ∀ q n, (search q n).length ≤ n

/-- An answer honours the filters: nothing filtered, at most `N` results. -/
structure Spec.Honours (N : Nat) (banned : List Nat) (row : List (Int × R)) : Prop where
  atMost : row.length ≤ N
  notBanned : ∀ p ∈ row, ∀ i ∈ banned, p.1 ≠ (i : Int)

theorem annFilter_honours {filter : Option (List Nat)} {N : Nat} {row : List (Int × R)}
    (h : filter = none → row.length ≤ N) : Spec.Honours N (filter.getD []) (annFilter filter N row) := by
  cases filter with
  | none => exact ⟨h rfl, by simp⟩
  | some ids => exact ⟨length_filterResults _ _ _, fun p hp => (mem_filterResults hp).2⟩

theorem Spec.Honours.map {N : Nat} {banned : List Nat} {row : List (Int × R)} {R' : Type}
    (h : Spec.Honours N banned row) (g : R → R') :
    Spec.Honours N banned (row.map fun p => (p.1, g p.2)) := by
  refine ⟨by simpa using h.atMost, ?_⟩
  intro p hp
  obtain ⟨q, hq, rfl⟩ := List.mem_map.mp hp
  exact h.notBanned q hq

theorem Spec.IsPaddedRow.honours {lowest : R} {N : Nat} {banned : List Nat}
    {single row : List (Int × R)} (h : Spec.IsPaddedRow lowest N single row)
    (hs : Spec.Honours N banned single) : Spec.Honours N banned row := by
  refine ⟨h.1.le, fun p hp i hi => ?_⟩
  obtain ⟨j, hj⟩ := List.getElem?_of_mem hp
  have hlt := (List.getElem?_eq_some_iff.mp hj).1
  have := h.2 j (by rw [← h.1]; exact hlt)
  rw [hj] at this
  split_ifs at this with hc
  · exact hs.notBanned p (List.mem_of_getElem? this.symm) i hi
  · cases this
    simp only
    omega

variable [LinearOrder R] [Field R] {f : Nat}

/-- What a caller asks to be left out. -/
def banned (filterLiked : Bool) (liked : List (Nat × R)) (filterItems : Option PyFilter) : List Nat :=
  ((filterItems.map PyFilter.ids).getD []) ++ if filterLiked then liked.map Prod.fst else []

theorem annPlan_filter {N : Nat} {fi : Option PyFilter} {likes : Option (List Nat)} {count : Nat}
    {filter : Option (List Nat)} (h : annPlan N fi likes = .ok (count, filter)) :
    filter.getD [] = (fi.map PyFilter.ids).getD [] ++ likes.getD [] ∧ (filter = none → count = N) := by
  unfold annPlan at h
  cases ht : truthyOpt fi with
  | error e => rw [ht] at h; simp [bind, Except.bind] at h
  | ok t =>
    rw [ht] at h
    cases likes with
    | none =>
      simp only [bind, Except.bind, pure, Except.pure, Except.ok.injEq, Prod.mk.injEq] at h
      obtain ⟨rfl, rfl⟩ := h
      refine ⟨by simp, fun hn => ?_⟩
      cases fi with
      | none => simp
      | some p => simp at hn
    | some l =>
      simp only [bind, Except.bind, pure, Except.pure, Except.ok.injEq, Prod.mk.injEq] at h
      obtain ⟨rfl, rfl⟩ := h
      exact ⟨by simp, by simp⟩

theorem annRecommendOne_honours {search : Vec (f + 1) R → Nat → List (Int × R)}
    (hsearch : AtMost search) {norm : Vec (f + 1) R → R} {maxNorm : R} {score : R → R → R}
    {st : MFState f R} {u : Nat} {liked : List (Nat × R)} {more : SpRows R} {ui : Option (SpRows R)}
    {N : Nat} {fl : Bool} (hui : fl = true → ui = some (liked :: more))
    {fi : Option PyFilter} {rc : Bool} {row : List (Int × R)}
    (h : annRecommendOne search norm maxNorm score st u ui N fl fi rc = .ok row) :
    Spec.Honours N (banned fl liked fi) row := by
  unfold annRecommendOne at h
  split_ifs at h with hrc
  · simp [bind, Except.bind, throw, throwThe, MonadExceptOf.throw] at h
  simp only [bind, Except.bind, pure, Except.pure] at h
  cases hu : st.user[u]? with
  | none => simp [hu, throw, throwThe, MonadExceptOf.throw] at h
  | some user =>
    simp only [hu] at h
    cases hl : annLikes fl ui with
    | error e => simp [hl] at h
    | ok likes =>
      simp only [hl] at h
      cases hp : annPlan N fi likes with
      | error e => simp [hp] at h
      | ok plan =>
        obtain ⟨count, filter⟩ := plan
        simp only [hp, Except.ok.injEq] at h
        subst h
        obtain ⟨h1, h2⟩ := annPlan_filter hp
        have hlk : likes.getD [] = if fl then liked.map Prod.fst else [] := by
          unfold annLikes at hl
          cases fl with
          | false => simp at hl; subst hl; rfl
          | true =>
            rw [hui rfl] at hl
            simp at hl; subst hl; rfl
        have := annFilter_honours (filter := filter) (N := N) (row := search (appendZero user) count)
          (fun hn => by rw [← h2 hn]; exact hsearch _ _)
        rw [h1, hlk] at this
        exact this.map _

/-- **C42** (Annoy and NMSLib `recommend`, one user): whatever the index answers, at most `N` results
and none of them liked (if filtered) or in `filter_items`. -/
theorem C42_ann_recommend_one (env : Env f R) (search : Vec (f + 1) R → Nat → List (Int × R))
    (hsearch : AtMost search) (norm : Vec (f + 1) R → R) (maxNorm : R) (score : R → R → R)
    (st st' : MFState f R) (u : Nat) (liked : List (Nat × R)) (N : Nat) (fl : Bool)
    (fi : Option PyFilter) (rc : Bool) (row : List (Int × R))
    (h : annRecommend env search norm maxNorm score true st (.one u) (some [liked]) N fl fi rc none =
      (.ok (.one row), st')) :
    Spec.Honours N (banned fl liked fi) row := by
  simp only [annRecommend, Option.isNone_some, Bool.and_false, Bool.false_eq_true, if_false,
    Option.isSome_none, Bool.false_and, Bool.not_true, Prod.mk.injEq] at h
  cases hr : annRecommendOne search norm maxNorm score st u (some [liked]) N fl fi rc with
  | error e => rw [hr] at h; simp [Except.map] at h
  | ok r =>
    rw [hr] at h
    simp only [Except.map, Except.ok.injEq, AnnAnswer.one.injEq] at h
    rw [← h.1]
    exact annRecommendOne_honours hsearch (fun _ => rfl) hr

/-- **C42** (Annoy and NMSLib `recommend`, several users): every row honours the filters of its own
user. -/
theorem C42_ann_recommend_batch (env : Env f R) (search : Vec (f + 1) R → Nat → List (Int × R))
    (hsearch : AtMost search) (norm : Vec (f + 1) R → R) (maxNorm : R) (score : R → R → R)
    (st st' : MFState f R) (us : List Nat) (liked : SpRows R) (N : Nat) (fl : Bool)
    (fi : Option PyFilter) (rc : Bool) (rows : List (List (Int × R)))
    (h : annRecommend env search norm maxNorm score true st (.many us) (some liked) N fl fi rc none =
      (.ok (.many rows), st')) :
    rows.length = us.length ∧ ∀ (r : Nat) row, rows[r]? = some row →
      Spec.Honours N (banned fl (liked.getD r []) fi) row := by
  simp only [annRecommend, Option.isNone_some, Bool.and_false, Bool.false_eq_true, if_false,
    Option.isSome_none, Bool.false_and, Bool.not_true] at h
  rcases hb : batchCall env.neginf N
    (annRecommendRow search norm maxNorm score N fl fi rc) (some liked) 0 us st with ⟨r, s'⟩
  rw [hb] at h
  cases r with
  | error e => simp [Except.map] at h
  | ok out =>
    simp only [Except.map, Prod.mk.injEq, Except.ok.injEq, AnnAnswer.many.injEq] at h
    obtain ⟨rfl, _⟩ := h
    obtain ⟨_, h2, _, h4⟩ := C43_batch_sound env.neginf N _ st
      (fun _ a => by cases a <;> rfl) (some liked) us 0 out s' hb
    refine ⟨h2, fun r row hr => ?_⟩
    have hlt : r < us.length := by rw [← h2]; exact (List.getElem?_eq_some_iff.mp hr).1
    obtain ⟨single, hs, hp⟩ := h4 r us[r] row (List.getElem?_eq_getElem hlt) hr
    refine hp.honours ?_
    rw [Nat.zero_add] at hs
    exact annRecommendOne_honours (liked := liked.getD r []) (more := []) hsearch (fun _ => rfl) hs

/-- **C42** (Faiss `recommend`, one user). -/
theorem C42_faiss_recommend_one (env : Env f R) (search : Vec f R → Nat → List (Int × R))
    (hsearch : AtMost search) (st st' : MFState f R) (u : Nat) (liked : List (Nat × R)) (N : Nat)
    (fl : Bool) (fi : Option PyFilter) (rc : Bool) (row : List (Int × R))
    (h : faissRecommend env search true false st (.one u) (some [liked]) N fl fi rc none =
      (.ok (.one row), st')) :
    Spec.Honours N (banned fl liked fi) row := by
  simp only [faissRecommend, Option.isNone_some, Bool.and_false, Bool.false_eq_true, if_false,
    Option.isSome_none, Bool.false_and, faissRecommendOne, Bool.not_true] at h
  unfold faissRecommendDirect at h
  cases rc with
  | true => simp at h
  | false =>
    simp only [Bool.false_eq_true, if_false] at h
    cases hg : gather st.user (Ids.one u).toList with
    | error e => simp [hg, bind, Except.bind] at h
    | ok users =>
      cases hl : annLikes fl (some [liked]) with
      | error e => simp [hg, hl, bind, Except.bind] at h
      | ok likes =>
        cases hp : annPlan N fi likes with
        | error e => simp [hg, hl, hp, bind, Except.bind] at h
        | ok plan =>
          obtain ⟨count, filter⟩ := plan
          simp only [hg, hl, hp, bind, Except.bind, pure, Except.pure, Bool.false_and,
            Bool.false_eq_true, if_false] at h
          cases users with
          | nil => simp at h
          | cons q qs =>
            simp only [Prod.mk.injEq, Except.ok.injEq, AnnAnswer.one.injEq] at h
            rw [← h.1]
            obtain ⟨h1, h2⟩ := annPlan_filter hp
            have hlk : likes.getD [] = if fl then liked.map Prod.fst else [] := by
              unfold annLikes at hl
              cases fl <;> simp at hl <;> subst hl <;> rfl
            have := annFilter_honours (filter := filter) (N := N) (row := search q count)
              (fun hn => by rw [← h2 hn]; exact hsearch _ _)
            rw [h1, hlk] at this
            exact this

/-! ## Exact indexes -/

/-- Asked for `n` results, the search answers the `n` best of `items` items, where `g` turns what it
answers into scores. -/
def ExactFor (items : Nat) (score : Nat → Option R) (g : R → R) (answer : Nat → List (Int × R)) : Prop :=
  ∀ n, ∃ out, (answer n).map (fun p => (p.1, g p.2)) = intRow out ∧
    Spec.IsRanking n (fun i => i < items) score out

/-- Filters for which `if filter_items:` enlarges the number of results asked for: lists (and `None`). -/
def ListFilter (fi : Option PyFilter) : Prop := ∀ p, fi = some p → ∃ l, p = .list l

theorem annPlan_list {N : Nat} {fi : Option PyFilter} (hfi : ListFilter fi) (likes : Option (List Nat)) :
    ∃ count filter, annPlan N fi likes = .ok (count, filter) ∧
      filter.getD [] = (fi.map PyFilter.ids).getD [] ++ likes.getD [] ∧
      count = N + (filter.getD []).length := by
  unfold annPlan
  cases fi with
  | none =>
    cases likes with
    | none => exact ⟨N, none, rfl, rfl, rfl⟩
    | some l => exact ⟨N + l.length, some ([] ++ l), rfl, by simp, by simp⟩
  | some p =>
    obtain ⟨l, rfl⟩ := hfi p rfl
    cases l with
    | nil =>
      cases likes with
      | none => exact ⟨N, some [], rfl, rfl, rfl⟩
      | some k => exact ⟨N + k.length, some ([] ++ k), rfl, by simp [PyFilter.ids], by simp⟩
    | cons a l =>
      cases likes with
      | none => exact ⟨_, _, rfl, by simp, by simp [PyFilter.ids]⟩
      | some k =>
        refine ⟨_, _, rfl, by simp, ?_⟩
        simp [PyFilter.ids]
        omega

theorem annFilter_exact {items N : Nat} {score : Nat → Option R} {g : R → R}
    {answer : Nat → List (Int × R)} (h : ExactFor items score g answer) (filter : Option (List Nat)) :
    ∃ out, (annFilter filter N (answer (N + (filter.getD []).length))).map (fun p => (p.1, g p.2)) =
        intRow out ∧
      Spec.IsRanking N (fun i => i < items ∧ i ∉ filter.getD []) score out := by
  obtain ⟨out, h1, h2⟩ := h (N + (filter.getD []).length)
  cases filter with
  | none =>
    refine ⟨out, h1, ?_⟩
    have := h2
    simp only [Option.getD_none, List.length_nil, Nat.add_zero] at this
    simpa using this
  | some ids =>
    refine ⟨_, ?_, h2.filterTake (F := ids) (by simp)⟩
    show (filterResults ids N _).map _ = _
    rw [filterResults_map, h1, filterResults_intRow]

/-- **C42** (exactness of Annoy and NMSLib `recommend`).  If the index is exact for the user's query,
the answer ranks the `N` best items that are neither liked (if filtered) nor in `filter_items`. -/
theorem C42_ann_recommend_exact_partial (env : Env f R)
    (search : Vec (f + 1) R → Nat → List (Int × R)) (norm : Vec (f + 1) R → R) (maxNorm : R)
    (conv : R → R → R) (st : MFState f R) (u : Nat) (user : Vec f R) (hu : st.user[u]? = some user)
    (items : Nat) (score : Nat → Option R)
    (hexact : ExactFor items score (conv (maxNorm * norm (appendZero user))) (search (appendZero user)))
    (liked : List (Nat × R)) (N : Nat) (fl : Bool) (fi : Option PyFilter) (hfi : ListFilter fi) :
    ∃ out, annRecommend env search norm maxNorm conv true st (.one u) (some [liked]) N fl fi false none =
        (.ok (.one (intRow out)), st) ∧
      Spec.IsRanking N (fun i => i < items ∧ i ∉ banned fl liked fi) score out := by
  have hl : annLikes fl (some [liked]) = .ok (if fl then some (liked.map Prod.fst) else none) := by
    cases fl <;> rfl
  obtain ⟨count, filter, hp, h1, h2⟩ := annPlan_list (N := N) hfi
    (if fl then some (liked.map Prod.fst) else none)
  obtain ⟨out, ho, hr⟩ := annFilter_exact (N := N) hexact filter
  have hb : filter.getD [] = banned fl liked fi := by
    rw [h1]
    unfold banned
    cases fl <;> rfl
  refine ⟨out, ?_, by rw [← hb]; exact hr⟩
  have : annRecommendOne search norm maxNorm conv st u (some [liked]) N fl fi false =
      .ok (intRow out) := by
    unfold annRecommendOne
    simp only [Bool.false_eq_true, if_false, hu, hl, hp, bind, Except.bind, pure, Except.pure]
    rw [h2, ho]
  simp only [annRecommend, Option.isNone_some, Bool.and_false, Bool.false_eq_true, if_false,
    Option.isSome_none, Bool.false_and, Bool.not_true, this]
  rfl

/-- **C42** (exactness of Faiss `recommend`). -/
theorem C42_faiss_recommend_exact_partial (env : Env f R) (search : Vec f R → Nat → List (Int × R))
    (st : MFState f R) (u : Nat) (user : Vec f R) (hu : st.user[u]? = some user)
    (items : Nat) (score : Nat → Option R) (hexact : ExactFor items score id (search user))
    (liked : List (Nat × R)) (N : Nat) (fl : Bool) (fi : Option PyFilter) (hfi : ListFilter fi) :
    ∃ out, faissRecommend env search true false st (.one u) (some [liked]) N fl fi false none =
        (.ok (.one (intRow out)), st) ∧
      Spec.IsRanking N (fun i => i < items ∧ i ∉ banned fl liked fi) score out := by
  have hl : annLikes fl (some [liked]) = .ok (if fl then some (liked.map Prod.fst) else none) := by
    cases fl <;> rfl
  obtain ⟨count, filter, hp, h1, h2⟩ := annPlan_list (N := N) hfi
    (if fl then some (liked.map Prod.fst) else none)
  obtain ⟨out, ho, hr⟩ := annFilter_exact (N := N) hexact filter
  have hb : filter.getD [] = banned fl liked fi := by
    rw [h1]
    unfold banned
    cases fl <;> rfl
  refine ⟨out, ?_, by rw [← hb]; exact hr⟩
  simp only [faissRecommend, Option.isNone_some, Bool.and_false, Bool.false_eq_true, if_false,
    Option.isSome_none, Bool.false_and, faissRecommendOne, Bool.not_true]
  unfold faissRecommendDirect
  simp only [Bool.false_eq_true, if_false, show (Ids.one u).toList = [u] from rfl, gather_one hu, hl, hp,
    bind, Except.bind, pure, Except.pure, Bool.false_and]
  rw [h2]
  simp only [Prod.mk.injEq, Except.ok.injEq, AnnAnswer.one.injEq, and_true]
  rw [← ho]
  simp

/-- **C42** (exactness of NMSLib `similar_items`, one item). -/
theorem C42_nmslib_similar_exact_partial (env : Env f R) (search : Vec f R → Nat → List (Int × R))
    (st : MFState f R) (i : Nat) (v : Vec f R) (hv : st.item[i]? = some v)
    (items : Nat) (score : Nat → Option R)
    (hexact : ExactFor items score (fun d => 1 - d) (search v)) (N : Nat) (fi : Option PyFilter) :
    ∃ out, nmslibSimilar env search true st (.one i) N false none fi none =
        (.ok (.one (intRow out)), st) ∧
      Spec.IsRanking N (fun j => j < items ∧ j ∉ (fi.map PyFilter.ids).getD []) score out := by
  obtain ⟨out, ho, hr⟩ := annFilter_exact (N := N) hexact (fi.map PyFilter.ids)
  refine ⟨out, ?_, hr⟩
  have hf : annItemFactors env st (.one i) false none = (.ok [v], st) := by
    unfold annItemFactors
    rw [if_neg (by simp), show (Ids.one i).toList = [i] from rfl, gather_one hv]
  simp only [nmslibSimilar, Bool.not_true, Bool.false_eq_true, if_false, Option.isSome_none, hf,
    Prod.mk.injEq, Except.ok.injEq, AnnAnswer.one.injEq, and_true]
  rw [← ho]
  cases fi with
  | none => rfl
  | some p =>
    show filterResults _ _ _ = (filterResults _ _ _).map _
    rw [filterResults_map]
    rfl

/-- **C42** (NMSLib and Faiss `similar_items`, several items): if at least `N` items besides the
filtered ones are certain to exist, the filter of the batch works for each row. -/
theorem C42_batch_filter_exact_partial {items N : Nat} {F : List Nat} (hN : N + F.length ≤ items)
    (score : Nat → Nat → Option R) (rows : List (List (Nat × R)))
    (h : ∀ (r : Nat) row, rows[r]? = some row →
      Spec.IsRanking (N + F.length) (fun i => i < items) (score r) row) :
    ∃ outs : List (List (Nat × R)), filterResultsBatch F N (rows.map intRow) = .ok (outs.map intRow) ∧
      outs.length = rows.length ∧ ∀ (r : Nat) out, outs[r]? = some out →
        Spec.IsRanking N (fun i => i < items ∧ i ∉ F) (score r) out := by
  induction rows generalizing score with
  | nil => exact ⟨[], rfl, rfl, by simp⟩
  | cons row rows ih =>
    obtain ⟨outs, h1, h2, h3⟩ := ih (fun r => score (r + 1)) fun r row hr => h (r + 1) row (by simpa using hr)
    have hr := h 0 row rfl
    have hk := hr.filterTake (F := F) le_rfl
    set out := (row.filter fun p => !F.contains p.1).take N with hout
    have hlen : out.length = N := by
      by_contra hne
      have hlt : out.length < N := lt_of_le_of_ne hk.atMost hne
      have hrow : N + F.length ≤ row.length := by
        by_contra hlt'
        have hall := hr.complete (not_le.mp hlt')
        have : (List.range items).length ≤ (row.map Prod.fst).length :=
          (List.nodup_range.subperm (fun i hi => hall i (List.mem_range.mp hi))).length_le
        simp at this
        omega
      have h4 := length_filter_notMem row hr.distinct F
      rw [hout, List.length_take] at hlt
      omega
    refine ⟨out :: outs, ?_, by simp [h2], ?_⟩
    · show (do
        let r ← broadcastRow N (filterResults F N (intRow row))
        pure (r :: (← filterResultsBatch F N (rows.map intRow)))) = _
      rw [filterResults_intRow, ← hout, h1]
      unfold broadcastRow
      rw [if_pos (by simpa [intRow] using hlen)]
      rfl
    · intro r o ho
      cases r with
      | zero => simp only [List.getElem?_cons_zero, Option.some.injEq] at ho; subst ho; exact hk
      | succ r => exact h3 r o (by simpa using ho)

/-! ## Where it fails -/

/-- An index over three items that answers any query with 2, 1, 0 in this order (distances 0, 1, 2). -/
def threeItems {n : Nat} : Vec n Rat → Nat → List (Int × Rat) :=
  fun _ k => [(2, 0), (1, 1), (0, 2)].take k

def threeState : MFState 1 Rat := freshState ⟨[![1]], [![1], ![2], ![3]]⟩

/-- **C42 is violated** by Annoy `similar_items` with a filter: the index is asked for `N` results only,
so filtered ones are not replaced.  With `N = 1` and `filter_items=[2]` nothing is returned although
items 0 and 1 remain. -/
theorem C42_annoy_similar_violated :
    (annoySimilar c10Env threeItems true threeState (.one 0) 1 false none (some (.list [2])) none).1 =
      .ok (.one []) := by
  rfl

/-- **C42 is violated** by filtering a batch: when one unfiltered result remains it fills the whole row,
repeated `N` times; when two remain of three, the call raises `ValueError`. -/
theorem C42_batch_filter_violated :
    (nmslibSimilar c10Env threeItems true threeState (.many [0]) 3 false none (some (.list [2, 1]))
        none).1 = .ok (.many [[(0, -1), (0, -1), (0, -1)]]) ∧
      (nmslibSimilar c10Env threeItems true threeState (.many [0]) 3 false none (some (.list [2]))
        none).1 = .error .valueError ∧
      (faissSimilar c10Env threeItems true false threeState (.many [0]) 3 false none
        (some (.list [2, 1])) none).1 = .ok (.many [[(0, 2), (0, 2), (0, 2)]]) := by
  decide +kernel

/-- **C42 is violated** by a filter given as a numpy array: `np.array([0])` is falsy, so no extra result
is fetched for it (nothing is returned for `N = 1` although items remain), and an array with two
elements raises `ValueError`. -/
theorem C42_array_filter_violated :
    (faissRecommend c10Env (fun q k => (threeItems q k).map fun p => (2 - p.1, -p.2)) true false
        threeState (.one 0) none 1 false (some (.array [0])) false none).1 = .ok (.one []) ∧
      (faissRecommend c10Env threeItems true false threeState (.one 0) none 1 false
        (some (.array [0, 1])) false none).1 = .error .valueError := by
  decide +kernel

/-- A Faiss model built with `approximate_recommend=False` cannot recommend at all. -/
theorem C42_faiss_not_approximate_violated (env : Env f R) (search : Vec f R → Nat → List (Int × R))
    (useGpu : Bool) (st : MFState f R) (u N : Nat) (rows : SpRows R) (fl : Bool) (fi : Option PyFilter)
    (rc : Bool) (items : Option (List Int)) :
    (faissRecommend env search false useGpu st (.one u) (some rows) N fl fi rc items).1 =
      .error .attributeError := by
  simp [faissRecommend, faissRecommendOne]

/-- `recommend` for several users without `user_items` raises although nothing in the call needs it. -/
theorem C42_ann_batch_needs_rows (env : Env f R) (search : Vec (f + 1) R → Nat → List (Int × R))
    (norm : Vec (f + 1) R → R) (maxNorm : R) (score : R → R → R) (st : MFState f R) (u : Nat)
    (us : List Nat) (N : Nat) (fi : Option PyFilter) :
    (annRecommend env search norm maxNorm score true st (.many (u :: us)) none N false fi false none).1 =
      .error .typeError := by
  simp [annRecommend, batchCall, batchArg]
  rfl

/-- **C42** (filter without a history).  When the items already liked are to be filtered, an approximate model does not answer without
the history of the user: without `user_items` it raises ValueError, and with a matrix that has no rows IndexError. -/
theorem C42_missing_history (env : Env f R) (search : Vec (f + 1) R → Nat → List (Int × R)) (search' : Vec f R → Nat → List (Int × R))
    (norm : Vec (f + 1) R → R) (maxNorm : R) (score : R → R → R) (useGpu : Bool) (st : MFState f R) (u : Nat) (N : Nat)
    (fi : Option PyFilter) :
    (annRecommend env search norm maxNorm score true st (.one u) none N true fi false none).1 = .error .valueError ∧
    (annRecommend env search norm maxNorm score true st (.one u) (some []) N true fi false none).1 = .error .indexError ∧
    (faissRecommend env search' true useGpu st (.one u) none N true fi false none).1 = .error .valueError ∧
    (faissRecommend env search' true useGpu st (.one u) (some []) N true fi false none).1 = .error .indexError := by
  refine ⟨rfl, ?_, rfl, ?_⟩
  · show (annRecommendOne search norm maxNorm score st u (some []) N true fi false).map AnnAnswer.one = _
    unfold annRecommendOne annLikes
    cases st.user[u]? <;> rfl
  · show (faissRecommendDirect env search' useGpu st (.one u) (some []) N true fi false).1 = _
    unfold faissRecommendDirect annLikes
    cases hg : gather st.user (Ids.one u).toList with
    | ok us => rfl
    | error e =>
      have : e = .indexError := by
        simp only [Ids.toList, gather] at hg
        cases hu : st.user[u]? <;> simp_all [gather, bind, Except.bind, pure, Except.pure]
      subst this
      rfl

example : (annRecommend c10Env (fun _ _ => [((0 : Int), (0 : Rat))]) (fun _ => 1) 1 annoyScore true (freshState ⟨[![1]], [![1], ![2]]⟩)
    (.one 0) (some []) 1 true none false none).1.toOption.isNone = true := by decide +kernel

theorem broadcastRow_length {N : Nat} {row out : List (Int × R)} (h : broadcastRow N row = .ok out) : out.length = N := by
  unfold broadcastRow at h
  split_ifs at h with hl
  · rw [← Except.ok.inj h]; exact hl
  · split at h
    · rw [← Except.ok.inj h]; simp
    · cases h

theorem filterResultsBatch_length {ids : List Nat} {N : Nat} (rows : List (List (Int × R))) {out : List (List (Int × R))}
    (h : filterResultsBatch ids N rows = .ok out) : ∀ row ∈ out, row.length = N := by
  induction rows generalizing out with
  | nil => rw [← Except.ok.inj h]; simp
  | cons r rows ih =>
    simp only [filterResultsBatch, bind, Except.bind] at h
    split at h
    · cases h
    · rename_i v hv
      split at h
      · cases h
      · rename_i w hw
        rw [← Except.ok.inj h]
        intro row hrow
        rcases List.mem_cons.mp hrow with rfl | hm
        · exact broadcastRow_length hv
        · exact ih hw row hm

/-- Two outcomes of a query say the same: the same exception, or the same ids and scores (the ids of an approximate model are integers). -/
def Spec.SameOutcome : Except Err (AnnAnswer R) → Except Err (Result f R) → Prop
  | .error e, .error e' => e = e'
  | .ok (.one row), .ok (.answer (.one row')) =>
    row.map Prod.fst = row'.map (fun p => (p.1 : Int)) ∧ row.map Prod.snd = row'.map Prod.snd
  | .ok (.many rows), .ok (.answer (.many rows')) =>
    rows.map (fun r => r.map Prod.fst) = rows'.map (fun r => r.map fun p => (p.1 : Int)) ∧
      rows.map (fun r => r.map Prod.snd) = rows'.map fun r => r.map Prod.snd
  | _, _ => False

theorem delegate_same_outcome (env : Env f R) (st : MFState f R) (q : Query f R)
    (hq : ∀ r, (runQuery env st q).1 = .ok r → ∃ a, r = .answer a) :
    Spec.SameOutcome (delegate env st q).1 (runQuery env st q).1 ∧ (delegate env st q).2 = (runQuery env st q).2 := by
  unfold delegate
  rcases hr : runQuery env st q with ⟨r, s⟩
  rw [hr] at hq
  match r, hq with
  | .error e, _ => exact ⟨rfl, rfl⟩
  | .ok (.answer (.one row)), _ => exact ⟨by simp [Spec.SameOutcome, AnnAnswer.ofAnswer, intRow], rfl⟩
  | .ok (.answer (.many rows)), _ => exact ⟨by simp [Spec.SameOutcome, AnnAnswer.ofAnswer, intRow], rfl⟩
  | .ok (.vectors xs), h => obtain ⟨a, ha⟩ := h _ rfl; cases ha
  | .ok (.explanation e), h => obtain ⟨a, ha⟩ := h _ rfl; cases ha

theorem map_answer_ok {x : Except Err (Answer R)} {r : Result f R} (h : x.map Result.answer = .ok r) :
    ∃ a, r = .answer a := by
  cases x with
  | error e => cases h
  | ok a => exact ⟨a, (Except.ok.inj h).symm⟩

theorem runQuery_similar_answer (env : Env f R) (st : MFState f R) (ids : Ids) (N : Nat) (fi : Option PyFilter)
    (items : Option (List Int)) (r : Result f R) (h : (runQuery env st (.similarItems ids N fi items)).1 = .ok r) :
    ∃ a, r = .answer a := by
  simp only [runQuery] at h
  split_ifs at h
  exact map_answer_ok h

theorem runQuery_similarRecalc_answer (env : Env f R) (st : MFState f R) (ids : Ids) (rows : SpRows R) (N : Nat)
    (fi : Option PyFilter) (items : Option (List Int)) (r : Result f R)
    (h : (runQuery env st (.similarItemsRecalc ids rows N fi items)).1 = .ok r) : ∃ a, r = .answer a := by
  simp only [runQuery] at h
  rcases hr : recalculateItem env st ids rows with ⟨x, s⟩
  rw [hr] at h
  cases x with
  | error e => cases h
  | ok q => exact map_answer_ok h

/-- **C42** (switched off).  With `approximate_similar_items=False` the three models answer `similar_items` as the wrapped model
does, with every argument (`filter_items`, `items`, `N` and the ids) and whether or not the factor is recalculated, and leave it as
the wrapped model would. -/
theorem C42_similar_exact (env : Env f R) (search : Vec f R → Nat → List (Int × R)) (useGpu : Bool) (st : MFState f R) (ids : Ids)
    (N : Nat) (rows : SpRows R) (none_or_rows : Option (SpRows R)) (fi : Option PyFilter) (items : Option (List Int)) :
    let asked := runQuery env st (.similarItems ids N fi items)
    let again := runQuery env st (.similarItemsRecalc ids rows N fi items)
    (∀ r ∈ [annoySimilar env search false st ids N false none_or_rows fi items,
        nmslibSimilar env search false st ids N false none_or_rows fi items,
        faissSimilar env search false useGpu st ids N false none_or_rows fi items],
      Spec.SameOutcome r.1 asked.1 ∧ r.2 = asked.2) ∧
    (∀ r ∈ [annoySimilar env search false st ids N true (some rows) fi items,
        nmslibSimilar env search false st ids N true (some rows) fi items,
        faissSimilar env search false useGpu st ids N true (some rows) fi items],
      Spec.SameOutcome r.1 again.1 ∧ r.2 = again.2) := by
  have h1 := delegate_same_outcome env st (.similarItems ids N fi items) (runQuery_similar_answer env st ids N fi items)
  have h2 := delegate_same_outcome env st (.similarItemsRecalc ids rows N fi items)
    (runQuery_similarRecalc_answer env st ids rows N fi items)
  refine ⟨fun r hr => ?_, fun r hr => ?_⟩
  · have : r = delegate env st (.similarItems ids N fi items) := by
      simpa [annoySimilar, nmslibSimilar, faissSimilar, delegateSimilar] using hr
    rw [this]; exact h1
  · have : r = delegate env st (.similarItemsRecalc ids rows N fi items) := by
      simpa [annoySimilar, nmslibSimilar, faissSimilar, delegateSimilar] using hr
    rw [this]; exact h2

/-- **C42** (switched off, `recommend`).  With `approximate_recommend=False` Annoy and NMSLib models answer `recommend` as the wrapped
model does, as long as the history that the call needs is given. -/
theorem C42_recommend_exact (env : Env f R) (search : Vec (f + 1) R → Nat → List (Int × R)) (norm : Vec (f + 1) R → R) (maxNorm : R)
    (score : R → R → R) (st : MFState f R) (ids : Ids) (ui : Option (SpRows R)) (N : Nat) (fl : Bool) (fi : Option PyFilter) (rc : Bool)
    (items : Option (List Int)) (hui : (fl || rc) = true → ui.isSome = true) :
    let r := annRecommend env search norm maxNorm score false st ids ui N fl fi rc items
    let asked := runQuery env st (.recommend ids ui N fl fi rc items)
    Spec.SameOutcome r.1 asked.1 ∧ r.2 = asked.2 := by
  have h := delegate_same_outcome env st (.recommend ids ui N fl fi rc items) (fun r hr => map_answer_ok (by simpa only [runQuery] using hr))
  have : annRecommend env search norm maxNorm score false st ids ui N fl fi rc items = delegate env st (.recommend ids ui N fl fi rc items) := by
    unfold annRecommend
    rw [if_neg, if_neg, if_pos] <;> try simp
    intro h
    exact Option.isSome_iff_ne_none.mp (hui (by simpa using h))
  simp only [this]
  exact h

/-- **C42** (recalculation without data).  Asked to recalculate the factor of an item without `item_users`, none of the three models
answers from the stored factor: the call raises AttributeError, whether or not the search is approximate, and changes nothing. -/
theorem C42_recalculate_without_rows (env : Env f R) (search : Vec f R → Nat → List (Int × R)) (approximate useGpu : Bool)
    (st : MFState f R) (i : Nat) (N : Nat) (fi : Option PyFilter) :
    annoySimilar env search approximate st (.one i) N true none fi none = (.error .attributeError, st) ∧
    nmslibSimilar env search approximate st (.one i) N true none fi none = (.error .attributeError, st) ∧
    faissSimilar env search approximate useGpu st (.one i) N true none fi none = (.error .attributeError, st) := by
  refine ⟨?_, ?_, ?_⟩
  · cases approximate <;> rfl
  · cases approximate <;> rfl
  · unfold faissSimilar
    rw [if_neg (by simp)]
    split_ifs <;> rfl

/-- **C42** (rows of different length).  NMSLib may find fewer results for one item than for another; `similar_items` of several items
then raises ValueError instead of returning a ragged answer, and otherwise every row has the same length. -/
theorem C42_nmslib_rows (env : Env f R) (search : Vec f R → Nat → List (Int × R)) (st st' : MFState f R) (is : List Nat) (N : Nat)
    (rc : Bool) (rows : Option (SpRows R)) (fi : Option PyFilter) (out : List (List (Int × R)))
    (h : nmslibSimilar env search true st (.many is) N rc rows fi none = (.ok (.many out), st')) :
    ∃ k, ∀ row ∈ out, row.length = k := by
  simp only [nmslibSimilar, Bool.not_true, Bool.false_eq_true, if_false, Option.isSome_none] at h
  rcases hf : annItemFactors env st (.many is) rc rows with ⟨r, s⟩
  rw [hf] at h
  cases r with
  | error e => simp at h
  | ok factors =>
    simp only at h
    cases hs : stackRows (factors.map fun q => search q (annCount N fi)) with
    | error e => rw [hs] at h; simp [bind, Except.bind] at h
    | ok found =>
      rw [hs] at h
      have hk : ∃ k, ∀ row ∈ found, row.length = k := by
        unfold stackRows at hs
        split at hs
        · simp at hs
        · rename_i r0 rs _
          split_ifs at hs with ha
          rw [← Except.ok.inj hs]
          refine ⟨r0.length, fun row hrow => ?_⟩
          rcases List.mem_cons.mp hrow with rfl | hm
          · rfl
          · simpa using List.all_eq_true.mp ha row hm
      obtain ⟨k, hk⟩ := hk
      cases fi with
      | none =>
        simp only [bind, Except.bind, annFilterBatch, Option.map_none, pure, Except.pure, Prod.mk.injEq, Except.ok.injEq,
          AnnAnswer.many.injEq] at h
        rw [← h.1]
        refine ⟨k, fun row hrow => ?_⟩
        obtain ⟨r0, hr0, rfl⟩ := List.mem_map.mp hrow
        simpa using hk r0 hr0
      | some F =>
        simp only [bind, Except.bind, annFilterBatch, Option.map_some, pure, Except.pure] at h
        split at h
        · simp at h
        · rename_i v hv
          simp only [Prod.mk.injEq, Except.ok.injEq, AnnAnswer.many.injEq] at h
          rw [← h.1]
          exact ⟨N, fun row hrow => filterResultsBatch_length _ hv row hrow⟩

example : (nmslibSimilar c10Env (fun v _ => if v 0 = 1 then [((0 : Int), (0 : Rat))] else []) true
      (freshState ⟨[![1]], [![1], ![2]]⟩) (.many [0, 1]) 1 false none none none).1 = .error .valueError ∧
    (nmslibSimilar c10Env (fun _ _ => [((0 : Int), (0 : Rat))]) true
      (freshState ⟨[![1]], [![1], ![2]]⟩) (.many [0, 1]) 1 false none none none).1 = .ok (.many [[(0, 1)], [(0, 1)]]) := by
  decide +kernel

/-- Filtering item 1 through a switched off Annoy model gives the wrapped model's answer, which is not the unfiltered one. -/
example :
    let st := freshState ⟨[![1]], [![1], ![2]]⟩
    let asked := fun fi => (annoySimilar c10Env (fun _ _ => []) false st (.one 0) 1 false none fi none).1
    asked (some (.list [0])) ≠ asked none ∧ (asked (some (.list [0]))).toOption.isSome = true := by
  decide +kernel

/-- The exact index used in the examples is exact for the scores `-d`. -/
example : ExactFor 3 (fun i => if i < 3 then some ((i : Rat) - 2) else none) (fun d => -d)
    (threeItems (n := 1) ![1]) := by
  intro n
  refine ⟨[(2, 0), (1, -1), (0, -2)].take n, ?_, ?_⟩
  · simp [threeItems, intRow, List.map_take]
  · match n with
    | 0 => exact ⟨by simp, by simp, by simp, by simp, by simp, by simp⟩
    | 1 =>
      refine ⟨by simp, by simp, by simp, by simp, by simp, ?_⟩
      intro i s hi hs hni p hp
      simp at hp hni
      subst hp
      interval_cases i <;> simp at hs hni ⊢ <;> rw [← hs] <;> norm_num
    | 2 =>
      refine ⟨by simp; norm_num, by simp, by simp, by simp, by simp, ?_⟩
      intro i s hi hs hni p hp
      simp at hp hni
      interval_cases i <;> simp at hs hni ⊢
      rcases hp with rfl | rfl <;> rw [← hs] <;> norm_num
    | n + 3 =>
      refine ⟨by simp; norm_num, by simp, by simp, by simp, ?_, ?_⟩
      · intro _ i hi
        interval_cases i <;> simp
      · intro i s hi hs hni p hp
        interval_cases i <;> simp at hni

end Implicit
