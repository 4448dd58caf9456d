import Verif.Lemmas.Tails
import Verif.Lemmas.Split
import Verif.Lemmas.Rounding
/-!
# C31 — leave_k_out_split holds out exactly K ratings per eligible user
-/

set_option linter.unusedSectionVars false

namespace Implicit

variable {R : Type} [LinearOrder R] [Field R] [IsStrictOrderedRing R] {Gen : Type}

/-- A user with more than `K + 1` ratings who is not reserved for train. -/
def Spec.Eligible (entries : List (Nat × Nat × R)) (K : Nat) (reserved : List Nat) (v : Nat) : Prop :=
  K + 1 < (entries.filter fun e => e.1 = v).length ∧ v ∉ reserved

theorem eligible_count (entries : List (Nat × Nat × R)) (K : Nat) (reserved : List Nat) (v : Nat) :
    Spec.Eligible entries K reserved v ↔
      K + 1 < (entries.map Prod.fst).count v ∧ v ∉ reserved := by
  unfold Spec.Eligible
  rw [List.count_eq_length_filter, List.filter_map, List.length_map]
  rfl

/-- Selecting different positions of a list without repetitions. -/
theorem nodup_select {α : Type} {l : List α} (hl : l.Nodup) {is : List Nat} (his : is.Nodup) :
    (is.filterMap fun i => l[i]?).Nodup := by
  refine his.filterMap fun i j x hi hj => ?_
  have hi := List.getElem?_eq_some_iff.mp hi
  have hj := List.getElem?_eq_some_iff.mp hj
  obtain ⟨h1, h2⟩ := hi
  obtain ⟨h3, h4⟩ := hj
  exact (List.Nodup.getElem_inj_iff hl).mp (h2.trans h4.symm)

theorem length_select {α : Type} {l : List α} : ∀ {is : List Nat}, (∀ i ∈ is, i < l.length) →
    (is.filterMap fun i => l[i]?).length = is.length
  | [], _ => rfl
  | i :: is, h => by
    rw [List.filterMap_cons, List.getElem?_eq_getElem (h i (by simp))]
    have := length_select (l := l) (is := is) fun j hj => h j (List.mem_cons_of_mem _ hj)
    simp [this]

theorem mem_select {α : Type} {l : List α} {is : List Nat} {x : α} :
    x ∈ (is.filterMap fun i => l[i]?) ↔ ∃ i ∈ is, l[i]? = some x := by
  rw [List.mem_filterMap]

/-- The ratings of the eligible users, in the order given. -/
def Spec.eligibleRatings (entries : List (Nat × Nat × R)) (K : Nat) (reserved : List Nat) :
    List (Nat × Nat × R) :=
  entries.filter fun e => decide (K + 1 < (entries.filter fun e' => e'.1 = e.1).length) && !reserved.contains e.1

/-- Which of the draws belongs to a rating: its place after sorting by users. -/
def drawOf (A : ArgSortIdx Nat) (ratings : List (Nat × Nat × R)) (e : Nat × Nat × R) : Nat :=
  (A.idx (ratings.map Prod.fst)).idxOf (ratings.idxOf e)

/-- The split in detail; `C31_split_partial` has all but the last part, which says that the held-out ratings of a
user are those with the greatest draws. -/
theorem leaveKOut_split [FloorSemiring R] (I : RngImpl R Gen) (A : ArgSortIdx Nat) (B : ArgSortIdx R) (fl : R → R)
    (P : Process R Gen) (X : Ratings R) (K : Nat)
    (reserved : List Nat)
    (hP : ∀ n, n = (Spec.eligibleRatings X.entries K reserved).length → (P.globalRandom n).length = n ∧
      Spec.KeysApart fl (X.entries.map Prod.fst) (P.globalRandom n)) (hnd : (X.entries.map fun e => (e.1, e.2.1)).Nodup)
    (hrow : ∀ e ∈ X.entries, e.1 < X.nrows) (hK : 1 ≤ K) (trainOnly : R)
    (ht0 : 0 ≤ trainOnly) (ht1 : trainOnly < 1) (rs : RandomState Gen) (g : Gen)
    (hg : checkRandomState I P rs = .ok g)
    (hres : (if 0 < trainOnly then choosePositions I g
        ((X.entries.map Prod.fst).dedup.insertionSort (· ≤ ·)).length trainOnly else .ok []) =
      .ok reserved) :
    ∃ train test, leaveKOutSplit I A B fl P X K trainOnly rs = .ok (train, test) ∧
      (train.nrows, train.ncols, train.rows.length) = (X.nrows, X.ncols, X.nrows) ∧
      (test.nrows, test.ncols, test.rows.length) = (X.nrows, X.ncols, X.nrows) ∧
      (∀ v, Spec.Eligible X.entries K reserved v → ∃ held : List (Nat × Nat × R), held.Nodup ∧
        held.length = K ∧ (∀ e ∈ held, e ∈ X.entries ∧ e.1 = v) ∧
        ∀ c, Spec.StoredAt test.rows v c ↔ ∃ e ∈ held, e.2.1 = c) ∧
      (∀ v c, v < X.nrows → ¬ Spec.Eligible X.entries K reserved v → ¬ Spec.StoredAt test.rows v c) ∧
      (∀ e ∈ X.entries,
        (Spec.StoredAt train.rows e.1 e.2.1 ∧ Spec.entry train.rows e.1 e.2.1 = e.2.2 ∧
          ¬ Spec.StoredAt test.rows e.1 e.2.1) ∨
        (Spec.StoredAt test.rows e.1 e.2.1 ∧ ¬ Spec.StoredAt train.rows e.1 e.2.1)) ∧
      (∀ r c, r < X.nrows → Spec.StoredAt train.rows r c ∨ Spec.StoredAt test.rows r c →
        ∃ v, (r, c, v) ∈ X.entries) ∧
      ((∀ u v, u ≤ v → Spec.Eligible X.entries K reserved v → Spec.Eligible X.entries K reserved u) →
        (∀ e ∈ X.entries, Spec.StoredAt test.rows e.1 e.2.1 →
          Spec.entry test.rows e.1 e.2.1 = e.2.2) ∧
        ∀ r c, r < X.nrows →
          Spec.entry train.rows r c + Spec.entry test.rows r c = Spec.total X.entries r c) ∧
      (∀ e ∈ X.entries, ∀ e' ∈ X.entries, e.1 = e'.1 → Spec.StoredAt test.rows e.1 e.2.1 →
        Spec.Eligible X.entries K reserved e.1 → ¬ Spec.StoredAt test.rows e'.1 e'.2.1 →
        let ratings := Spec.eligibleRatings X.entries K reserved
        fl ((e.1 : R) + (P.globalRandom ratings.length).getD (drawOf A ratings e') 0) ≤
          fl ((e.1 : R) + (P.globalRandom ratings.length).getD (drawOf A ratings e) 0)) := by
  have hXnd : X.entries.Nodup := List.Nodup.of_map _ hnd
  set users := X.entries.map Prod.fst with husers
  set cu := (users.dedup.insertionSort (· ≤ ·)).filter fun u =>
    decide (K + 1 < users.count u) && !reserved.contains u with hcu
  have hcumem : ∀ u, cu.contains u = true ↔ Spec.Eligible X.entries K reserved u := by
    intro u
    rw [List.contains_iff_mem, hcu, List.mem_filter, eligible_count, ← husers]
    rw [(List.perm_insertionSort _ _).mem_iff, List.mem_dedup]
    simp only [Bool.and_eq_true, decide_eq_true_eq, Bool.not_eq_true', ← Bool.not_eq_true,
      List.contains_iff_mem]
    constructor
    · rintro ⟨-, h⟩; exact h
    · intro h; exact ⟨List.count_pos_iff.mp (by omega), h⟩
  set cand := X.entries.filter fun e => cu.contains e.1 with hcand
  set rest := X.entries.filter fun e => !cu.contains e.1 with hrest
  set arr := cand.map Prod.fst with harr
  have hcandeq : Spec.eligibleRatings X.entries K reserved = cand := by
    rw [hcand]
    unfold Spec.eligibleRatings
    refine List.filter_congr fun e _ => ?_
    rw [Bool.eq_iff_iff, hcumem]
    unfold Spec.Eligible
    simp
  have harrlen : arr.length = (Spec.eligibleRatings X.entries K reserved).length := by
    rw [harr, List.length_map, hcandeq]
  have hcandnd : cand.Nodup := hXnd.sublist List.filter_sublist
  have hmemcand : ∀ e, e ∈ cand ↔ e ∈ X.entries ∧ Spec.Eligible X.entries K reserved e.1 := by
    intro e; rw [hcand, List.mem_filter, hcumem]
  have hmemrest : ∀ e, e ∈ rest ↔ e ∈ X.entries ∧ ¬ Spec.Eligible X.entries K reserved e.1 := by
    intro e; rw [hrest, List.mem_filter, ← hcumem, Bool.not_eq_true', Bool.not_eq_true]
  have harrcount : ∀ u, Spec.Eligible X.entries K reserved u → arr.count u = users.count u := by
    intro u hu
    rw [harr, husers, List.count_eq_length_filter, List.count_eq_length_filter, List.filter_map,
      List.filter_map, List.length_map, List.length_map, hcand, List.filter_filter]
    congr 1
    refine List.filter_congr fun e _ => ?_
    simp only [Function.comp_apply]
    by_cases h : e.1 = u
    · rw [h, (hcumem u).mpr hu]; simp
    · simp [h]
  have harrmem : ∀ u, u ∈ arr ↔ Spec.Eligible X.entries K reserved u := by
    intro u
    constructor
    · intro h
      obtain ⟨e, he, rfl⟩ := List.mem_map.mp h
      exact ((hmemcand e).mp he).2
    · intro h
      apply List.count_pos_iff.mp
      rw [harrcount u h]
      have := ((eligible_count _ _ _ _).mp h).1
      rw [← husers] at this
      omega
  have harrsub : ∀ u ∈ arr, u ∈ users := by
    intro u hu
    obtain ⟨e, he, rfl⟩ := List.mem_map.mp hu
    exact List.mem_map.mpr ⟨e, ((hmemcand e).mp he).1, rfl⟩
  obtain ⟨t, htt, blk, hb1, hb2, hb3, hb4⟩ := takeTails_ok A B fl arr K (P.globalRandom arr.length)
    (hP arr.length harrlen).1 (fun u hu v hv => (hP arr.length harrlen).2 u (harrsub u hu) v (harrsub v hv)) (fun u hu => by
      have h := (harrmem u).mp hu
      rw [harrcount u h]
      have := ((eligible_count _ _ _ _).mp h).1
      rw [← husers] at this
      omega)
  set trainIdx := (List.range arr.length).filter fun i => !t.contains i with htrainIdx
  set testE := t.filterMap fun i => cand[i]? with htestE
  set trainE := rest ++ trainIdx.filterMap fun i => cand[i]? with htrainE
  have hrun : leaveKOutSplit I A B fl P X K trainOnly rs = .ok (X.toCsr trainE, X.toCsr testE) := by
    unfold leaveKOutSplit
    have h1 : ¬ ((K : Int) < 1) := by omega
    have h2 : ¬ (trainOnly < 0 ∨ 1 ≤ trainOnly) := by
      rintro (h | h)
      · exact absurd h (not_lt.mpr ht0)
      · exact absurd h (not_le.mpr ht1)
    simp only [if_neg h1, if_neg h2, hg, Int.toNat_natCast]
    by_cases h0 : 0 < trainOnly
    · rw [if_pos h0] at hres
      simp only [if_pos h0]
      rw [← husers]
      simp only [bind, Except.bind, pure, Except.pure]
      rw [hres]
      dsimp only
      rw [← hcu, ← hcand, ← harr, htt]
    · rw [if_neg h0] at hres
      cases hres
      simp only [if_neg h0]
      rw [← husers]
      simp only [bind, Except.bind, pure, Except.pure]
      rw [← hcu, ← hcand, ← harr, htt]
  -- membership in the two lists
  have hget : ∀ (i : Nat) (e : Nat × Nat × R), cand[i]? = some e → arr[i]? = some e.1 := by
    intro i e h; rw [harr, List.getElem?_map, h]; rfl
  have hget' : ∀ (i v : Nat), arr[i]? = some v → ∃ e, cand[i]? = some e ∧ e.1 = v := by
    intro i v h
    rw [harr, List.getElem?_map] at h
    obtain ⟨e, he, rfl⟩ := Option.map_eq_some_iff.mp h
    exact ⟨e, he, rfl⟩
  have htest_sub : ∀ e ∈ testE, e ∈ cand := by
    intro e he
    obtain ⟨i, -, hi⟩ := mem_select.mp he
    exact List.mem_of_getElem? hi
  have htrain_sub : ∀ e ∈ trainE, e ∈ X.entries := by
    intro e he
    rcases List.mem_append.mp he with h | h
    · exact ((hmemrest e).mp h).1
    · obtain ⟨i, -, hi⟩ := mem_select.mp h
      exact ((hmemcand e).mp (List.mem_of_getElem? hi)).1
  have htrain_nd : trainE.Nodup := by
    refine List.nodup_append.mpr ⟨hXnd.sublist List.filter_sublist,
      nodup_select hcandnd (List.nodup_range.filter _), ?_⟩
    rintro a ha b hb rfl
    obtain ⟨i, -, hi⟩ := mem_select.mp hb
    exact ((hmemrest a).mp ha).2 ((hmemcand a).mp (List.mem_of_getElem? hi)).2
  have hpos_nd : ∀ l : List (Nat × Nat × R), l.Nodup → (∀ e ∈ l, e ∈ X.entries) →
      (l.map fun e => (e.1, e.2.1)).Nodup := by
    intro l hl hsub
    exact List.Nodup.map_on (fun a ha b hb hab =>
      List.inj_on_of_nodup_map hnd (hsub a ha) (hsub b hb) hab) hl
  have hpart : ∀ e ∈ X.entries, (e ∈ trainE ∧ e ∉ testE) ∨ (e ∈ testE ∧ e ∉ trainE) := by
    intro e he
    by_cases hel : Spec.Eligible X.entries K reserved e.1
    · have hc := (hmemcand e).mpr ⟨he, hel⟩
      obtain ⟨i, hi⟩ := List.mem_iff_getElem?.mp hc
      have hil : i < cand.length := (List.getElem?_eq_some_iff.mp hi).1
      have huniq : ∀ j, cand[j]? = some e → j = i := by
        intro j hj
        obtain ⟨a, b⟩ := List.getElem?_eq_some_iff.mp hj
        obtain ⟨c, d⟩ := List.getElem?_eq_some_iff.mp hi
        exact (List.Nodup.getElem_inj_iff hcandnd).mp (b.trans d.symm)
      have hnr : e ∉ rest := fun h => ((hmemrest e).mp h).2 hel
      by_cases hit : i ∈ t
      · right
        refine ⟨mem_select.mpr ⟨i, hit, hi⟩, fun h => ?_⟩
        rcases List.mem_append.mp h with h | h
        · exact hnr h
        · obtain ⟨j, hj, hje⟩ := mem_select.mp h
          rw [huniq j hje] at hj
          have := (List.mem_filter.mp hj).2
          simp only [Bool.not_eq_true', ← Bool.not_eq_true, List.contains_iff_mem] at this
          exact this hit
      · left
        refine ⟨List.mem_append.mpr (Or.inr (mem_select.mpr ⟨i, List.mem_filter.mpr
          ⟨List.mem_range.mpr (by rw [harr, List.length_map]; exact hil), ?_⟩, hi⟩)), fun h => ?_⟩
        · simp only [Bool.not_eq_true', ← Bool.not_eq_true, List.contains_iff_mem]; exact hit
        · obtain ⟨j, hj, hje⟩ := mem_select.mp h
          rw [huniq j hje] at hj
          exact hit hj
    · left
      refine ⟨List.mem_append.mpr (Or.inl ((hmemrest e).mpr ⟨he, hel⟩)), fun h => ?_⟩
      exact hel ((hmemcand e).mp (htest_sub e h)).2
  have hcell : ∀ e e' : Nat × Nat × R, e ∈ X.entries → e' ∈ X.entries → e.1 = e'.1 → e.2.1 = e'.2.1 →
      e = e' := fun e e' h h' h1 h2 => List.inj_on_of_nodup_map hnd h h' (Prod.ext h1 h2)
  have htest_sub' : ∀ e ∈ testE, e ∈ X.entries := fun e he => ((hmemcand e).mp (htest_sub e he)).1
  have hst_train : ∀ e ∈ X.entries, Spec.StoredAt (X.toCsr trainE).rows e.1 e.2.1 ↔ e ∈ trainE := by
    intro e he
    refine (storedAt_cooToCsr X.nrows trainE (hrow e he) e.2.1).trans ⟨?_, fun h => ⟨e.2.2, h⟩⟩
    rintro ⟨v, hv⟩
    rwa [hcell e _ he (htrain_sub _ hv) rfl rfl]
  have hst_test : ∀ e ∈ X.entries, Spec.StoredAt (X.toCsr testE).rows e.1 e.2.1 ↔ e ∈ testE := by
    intro e he
    refine (storedAt_cooToCsr X.nrows testE (hrow e he) e.2.1).trans ⟨?_, fun h => ⟨e.2.2, h⟩⟩
    rintro ⟨v, hv⟩
    rwa [hcell e _ he (htest_sub' _ hv) rfl rfl]
  have hval_train : ∀ e ∈ trainE, Spec.entry (X.toCsr trainE).rows e.1 e.2.1 = e.2.2 := by
    intro e he
    exact (entry_cooToCsr X.nrows trainE (hrow e (htrain_sub e he)) e.2.1).trans
      (total_of_mem (hpos_nd _ htrain_nd htrain_sub) he)
  refine ⟨_, _, hrun, by simp [Ratings.toCsr, cooToCsr_length], by simp [Ratings.toCsr, cooToCsr_length],
    ?_, ?_, ?_, ?_, ?_, ?_⟩
  · intro v hv
    have hva := (harrmem v).mpr hv
    obtain ⟨h1, h2, h3⟩ := hb1 v hva
    have hin : ∀ x ∈ blk v, x < cand.length := fun x hx => by
      obtain ⟨e, he, -⟩ := hget' x v (h3 x hx)
      exact (List.getElem?_eq_some_iff.mp he).1
    refine ⟨(blk v).filterMap fun i => cand[i]?, nodup_select hcandnd h1, by
      rw [length_select hin, h2], ?_, ?_⟩
    · intro e he
      obtain ⟨i, hi, hie⟩ := mem_select.mp he
      refine ⟨((hmemcand e).mp (List.mem_of_getElem? hie)).1, ?_⟩
      have a := hget i e hie
      rw [h3 i hi, Option.some.injEq] at a
      exact a.symm
    · intro c
      have hvr : v < X.nrows := by
        obtain ⟨e, he, rfl⟩ := List.mem_map.mp hva
        exact hrow e ((hmemcand e).mp he).1
      refine (storedAt_cooToCsr X.nrows testE hvr c).trans ⟨?_, ?_⟩
      · rintro ⟨w, hw⟩
        obtain ⟨i, hi, hie⟩ := mem_select.mp hw
        obtain ⟨v', hv', hib⟩ := (hb2 i).mp hi
        have a := (hb1 v' hv').2.2 i hib
        rw [hget i _ hie, Option.some.injEq] at a
        refine ⟨(v, c, w), mem_select.mpr ⟨i, ?_, hie⟩, rfl⟩
        simp only at a
        rw [a]; exact hib
      · rintro ⟨e, he, rfl⟩
        obtain ⟨i, hi, hie⟩ := mem_select.mp he
        have a := hget i e hie
        rw [h3 i hi, Option.some.injEq] at a
        refine ⟨e.2.2, mem_select.mpr ⟨i, (hb2 i).mpr ⟨v, hva, hi⟩, ?_⟩⟩
        rw [hie, a]
  · intro v c hv hel hs
    obtain ⟨w, hw⟩ := (storedAt_cooToCsr X.nrows testE hv c).mp hs
    exact hel ((hmemcand _).mp (htest_sub _ hw)).2
  · intro e he
    rcases hpart e he with ⟨h1, h2⟩ | ⟨h1, h2⟩
    · exact Or.inl ⟨(hst_train e he).mpr h1, hval_train e h1, fun h => h2 ((hst_test e he).mp h)⟩
    · exact Or.inr ⟨(hst_test e he).mpr h1, fun h => h2 ((hst_train e he).mp h)⟩
  · intro r c hr hs
    rcases hs with hs | hs
    · obtain ⟨v, hv⟩ := (storedAt_cooToCsr X.nrows trainE hr c).mp hs
      exact ⟨v, htrain_sub _ hv⟩
    · obtain ⟨v, hv⟩ := (storedAt_cooToCsr X.nrows testE hr c).mp hs
      exact ⟨v, htest_sub' _ hv⟩
  · intro hgap
    have htnd : t.Nodup := hb3 fun u ⟨v, hv, huv⟩ =>
      (harrmem u).mpr (hgap u v huv ((harrmem v).mp hv))
    have htest_nd : testE.Nodup := nodup_select hcandnd htnd
    refine ⟨fun e he hs => ?_, fun r c hr => ?_⟩
    · have := (hst_test e he).mp hs
      exact (entry_cooToCsr X.nrows testE (hrow e he) e.2.1).trans
        (total_of_mem (hpos_nd _ htest_nd htest_sub') this)
    · have hperm : (trainE ++ testE).Perm X.entries := by
        refine (List.perm_ext_iff_of_nodup ?_ hXnd).mpr ?_
        · refine List.nodup_append.mpr ⟨htrain_nd, htest_nd, ?_⟩
          rintro a ha b hb rfl
          rcases hpart a (htrain_sub a ha) with ⟨-, h⟩ | ⟨-, h⟩
          · exact h hb
          · exact h ha
        · intro e
          rw [List.mem_append]
          constructor
          · rintro (h | h)
            · exact htrain_sub e h
            · exact htest_sub' e h
          · intro h
            rcases hpart e h with ⟨h, -⟩ | ⟨h, -⟩
            · exact Or.inl h
            · exact Or.inr h
      rw [← total_perm hperm, total_append]
      exact congrArg₂ _ (entry_cooToCsr X.nrows trainE hr c) (entry_cooToCsr X.nrows testE hr c)
  · intro e he e' he' hee hs hel hs'
    have het := (hst_test e he).mp hs
    have het' := fun h => hs' ((hst_test e' he').mpr h)
    have hec := (hmemcand e).mpr ⟨he, hel⟩
    have hec' := (hmemcand e').mpr ⟨he', hee ▸ hel⟩
    have hat : ∀ x ∈ cand, cand[cand.idxOf x]? = some x := fun x hx => List.getElem?_idxOf hx
    have hidxOf : ∀ (i : Nat) (x : Nat × Nat × R), cand[i]? = some x → cand.idxOf x = i := by
      intro i x hi
      obtain ⟨h1, h2⟩ := List.getElem?_eq_some_iff.mp hi
      rw [← h2]
      exact hcandnd.idxOf_getElem i h1
    have hva := (harrmem e.1).mpr hel
    have hy : cand.idxOf e ∈ blk e.1 := by
      obtain ⟨i, hi, hie⟩ := mem_select.mp het
      obtain ⟨v', hv', hib⟩ := (hb2 i).mp hi
      have a := (hb1 v' hv').2.2 i hib
      rw [hget i _ hie, Option.some.injEq] at a
      rw [hidxOf i e hie, a]
      exact hib
    have hx : cand.idxOf e' ∉ blk e.1 := fun h =>
      het' (mem_select.mpr ⟨_, (hb2 _).mpr ⟨e.1, hva, h⟩, hat e' hec'⟩)
    have := hb4 e.1 hva _ hy (cand.idxOf e') (by rw [hget _ _ (hat e' hec'), hee]) hx
    have hl : arr.length = cand.length := by rw [harr, List.length_map]
    rw [hcandeq]
    dsimp only
    rw [← hl]
    exact this

/-- **C31** (partial: the values in test are only correct when the eligible user ids have no gaps, see
`C31_gap_violated`).  For every outcome of sorting and shuffling: of every eligible user exactly `K` ratings are
stored in test, of other users none; every rating is stored in exactly one of the matrices, in train with
its value; nothing else is stored.  If with every eligible user all smaller ids are eligible, test has
the right values too and train + test = ratings. -/
theorem C31_split_partial [FloorSemiring R] (I : RngImpl R Gen) (A : ArgSortIdx Nat) (B : ArgSortIdx R) (fl : R → R)
    (P : Process R Gen) (X : Ratings R)
    (hP : ∀ n, (P.globalRandom n).length = n ∧ Spec.KeysApart fl (X.entries.map Prod.fst) (P.globalRandom n)) (hnd : (X.entries.map fun e => (e.1, e.2.1)).Nodup)
    (hrow : ∀ e ∈ X.entries, e.1 < X.nrows) (K : Nat) (hK : 1 ≤ K) (trainOnly : R)
    (ht0 : 0 ≤ trainOnly) (ht1 : trainOnly < 1) (rs : RandomState Gen) (g : Gen)
    (hg : checkRandomState I P rs = .ok g) (reserved : List Nat)
    (hres : (if 0 < trainOnly then choosePositions I g
        ((X.entries.map Prod.fst).dedup.insertionSort (· ≤ ·)).length trainOnly else .ok []) =
      .ok reserved) :
    ∃ train test, leaveKOutSplit I A B fl P X K trainOnly rs = .ok (train, test) ∧
      (train.nrows, train.ncols, train.rows.length) = (X.nrows, X.ncols, X.nrows) ∧
      (test.nrows, test.ncols, test.rows.length) = (X.nrows, X.ncols, X.nrows) ∧
      (∀ v, Spec.Eligible X.entries K reserved v → ∃ held : List (Nat × Nat × R), held.Nodup ∧
        held.length = K ∧ (∀ e ∈ held, e ∈ X.entries ∧ e.1 = v) ∧
        ∀ c, Spec.StoredAt test.rows v c ↔ ∃ e ∈ held, e.2.1 = c) ∧
      (∀ v c, v < X.nrows → ¬ Spec.Eligible X.entries K reserved v → ¬ Spec.StoredAt test.rows v c) ∧
      (∀ e ∈ X.entries,
        (Spec.StoredAt train.rows e.1 e.2.1 ∧ Spec.entry train.rows e.1 e.2.1 = e.2.2 ∧
          ¬ Spec.StoredAt test.rows e.1 e.2.1) ∨
        (Spec.StoredAt test.rows e.1 e.2.1 ∧ ¬ Spec.StoredAt train.rows e.1 e.2.1)) ∧
      (∀ r c, r < X.nrows → Spec.StoredAt train.rows r c ∨ Spec.StoredAt test.rows r c →
        ∃ v, (r, c, v) ∈ X.entries) ∧
      ((∀ u v, u ≤ v → Spec.Eligible X.entries K reserved v → Spec.Eligible X.entries K reserved u) →
        (∀ e ∈ X.entries, Spec.StoredAt test.rows e.1 e.2.1 →
          Spec.entry test.rows e.1 e.2.1 = e.2.2) ∧
        ∀ r c, r < X.nrows →
          Spec.entry train.rows r c + Spec.entry test.rows r c = Spec.total X.entries r c) := by
  obtain ⟨train, test, h1, h2, h3, h4, h5, h6, h7, h8, -⟩ := leaveKOut_split I A B fl P X K reserved
    (fun n _ => hP n) hnd hrow hK trainOnly ht0 ht1 rs g hg hres
  exact ⟨train, test, h1, h2, h3, h4, h5, h6, h7, h8⟩

/-- With exact sums, draws from [0,1) keep the users apart. -/
theorem C31_keys_exact (arr : List Nat) (random : List R) (h01 : ∀ r ∈ random, 0 ≤ r ∧ r < 1) :
    Spec.KeysApart id arr random := by
  intro u _ v _ huv r hr r' hr'
  have h1 : (u : R) + 1 ≤ v := by exact_mod_cast huv
  have := (h01 r hr).2
  have := (h01 r' hr').1
  simp only [id]
  linarith

/-- Rounding to `p` bits does not pass a multiple of the spacing. -/
theorem roundBits_le_of_mul [FloorRing R] (p : Nat) (emin : Int) {x : R} (m : Int) (h : x ≤ m * ulp p emin x) :
    roundBits p emin x ≤ m * ulp p emin x := by
  have hpos : 0 < ulp p emin x := by unfold ulp; positivity
  unfold roundBits
  refine mul_le_mul_of_nonneg_right ?_ hpos.le
  have h1 : x / ulp p emin x ≤ m := (div_le_iff₀ hpos).mpr h
  have : round (x / ulp p emin x) ≤ m := by
    rw [round_eq]
    have h2 : ⌊x / ulp p emin x + 1 / 2⌋ < m + 1 := by
      rw [Int.floor_lt]
      push_cast
      have : (1 : R) / 2 < 1 := by norm_num
      linarith
    omega
  exact_mod_cast this

theorem le_roundBits_of_mul [FloorRing R] (p : Nat) (emin : Int) {x : R} (m : Int) (h : m * ulp p emin x ≤ x) :
    m * ulp p emin x ≤ roundBits p emin x := by
  have hpos : 0 < ulp p emin x := by unfold ulp; positivity
  unfold roundBits
  refine mul_le_mul_of_nonneg_right ?_ hpos.le
  have h1 : m ≤ x / ulp p emin x := (le_div_iff₀ hpos).mpr h
  have : m ≤ round (x / ulp p emin x) := by
    rw [round_eq, Int.le_floor]
    have : (0 : R) < 1 / 2 := by norm_num
    linarith
  exact_mod_cast this

/-- Below `2^k` every multiple of `2^(k - p)` is a multiple of the spacing. -/
theorem exists_mul_ulp [FloorRing R] (p : Nat) (emin : Int) (k : Nat) (he : emin ≤ k - p) {x : R} (h0 : 0 < x) (hx : x < 2 ^ k) (n : Int) :
    ∃ m : Int, (n : R) * 2 ^ ((k : Int) - p) = m * ulp p emin x := by
  have hlog : Int.log 2 |x| < k := by
    rw [abs_of_pos h0]
    refine (Int.lt_zpow_iff_log_lt (by norm_num) h0).mp ?_
    exact_mod_cast hx
  obtain ⟨d, hd⟩ : ∃ d : Nat, (k : Int) - p = max (Int.log 2 |x| - p + 1) emin + d :=
    ⟨((k : Int) - p - max (Int.log 2 |x| - p + 1) emin).toNat, by omega⟩
  refine ⟨n * 2 ^ d, ?_⟩
  unfold ulp
  rw [hd, zpow_add₀ (by norm_num), zpow_natCast]
  push_cast
  ring

/-- **In binary floating point** with `p` bits (53 in `float64`) the users are kept apart if their numbers are below `2^k - 1` and no
draw is smaller than `2^(k - p)`. -/
theorem C31_keys_float [FloorRing R] (p : Nat) (emin : Int) (k : Nat) (hk : k ≤ p) (he : emin ≤ k - p) (arr : List Nat)
    (harr : ∀ u ∈ arr, u + 1 < 2 ^ k) (random : List R) (h01 : ∀ r ∈ random, 2 ^ ((k : Int) - p) ≤ r ∧ r < 1) :
    Spec.KeysApart (roundBits p emin) arr random := by
  intro u hu v hv huv r hr r' hr'
  have hδ : (0 : R) < 2 ^ ((k : Int) - p) := by positivity
  have huv' : (u : R) + 1 ≤ v := by exact_mod_cast huv
  have hvk : (v : R) + 1 ≤ 2 ^ k := by exact_mod_cast (harr v hv).le
  obtain ⟨h1, h2⟩ := h01 r hr
  obtain ⟨h3, h4⟩ := h01 r' hr'
  have hu0 : (0 : R) ≤ u := Nat.cast_nonneg u
  have hv0 : (0 : R) ≤ v := Nat.cast_nonneg v
  have hmul : ∀ n : Nat, (n : R) = ((n * 2 ^ (p - k) : Int) : R) * 2 ^ ((k : Int) - p) := by
    intro n
    have e : (k : Int) - p = -((p - k : Nat) : Int) := by omega
    rw [e, zpow_neg, zpow_natCast]
    push_cast
    rw [mul_assoc, mul_inv_cancel₀ (by positivity), mul_one]
  obtain ⟨m, hm⟩ := exists_mul_ulp p emin k he (x := (u : R) + r) (by linarith) (by linarith) (v * 2 ^ (p - k) : Int)
  obtain ⟨m', hm'⟩ := exists_mul_ulp p emin k he (x := (v : R) + r') (by linarith) (by linarith) (v * 2 ^ (p - k) + 1 : Int)
  rw [← hmul] at hm
  have hv1 : ((v * 2 ^ (p - k) + 1 : Int) : R) * 2 ^ ((k : Int) - p) = v + 2 ^ ((k : Int) - p) := by
    rw [Int.cast_add, add_mul, ← hmul, Int.cast_one, one_mul]
  rw [hv1] at hm'
  have hle := roundBits_le_of_mul p emin (x := (u : R) + r) m (by rw [← hm]; linarith)
  have hge := le_roundBits_of_mul p emin (x := (v : R) + r') m' (by rw [← hm']; linarith)
  rw [← hm] at hle
  rw [← hm'] at hge
  linarith

/-- **C31** (`train_only_size`; partial: only when every user id below `n` has a rating and no other has, see
`C31_reserved_violated`).  With a generator that draws without replacement, exactly `max(1, ⌊n · size⌋)` of the `n` users
keep all their ratings in train; of every other user with more than `K + 1` ratings `K` are held out. -/
theorem C31_reserved_partial [FloorSemiring R] (I : RngImpl R Gen) (A : ArgSortIdx Nat) (B : ArgSortIdx R) (fl : R → R)
    (hI : ∀ g n size, size ≤ n → (I.choice g n size).Nodup ∧ (I.choice g n size).length = size ∧ ∀ i ∈ I.choice g n size, i < n)
    (P : Process R Gen) (X : Ratings R)
    (hP : ∀ n, (P.globalRandom n).length = n ∧ Spec.KeysApart fl (X.entries.map Prod.fst) (P.globalRandom n))
    (hnd : (X.entries.map fun e => (e.1, e.2.1)).Nodup) (n : Nat) (hn : 1 ≤ n) (hX : X.nrows = n)
    (hall : ∀ u, u < n ↔ u ∈ X.entries.map Prod.fst) (K : Nat) (hK : 1 ≤ K) (trainOnly : R)
    (ht0 : 0 < trainOnly) (ht1 : trainOnly < 1) (rs : RandomState Gen) (g : Gen) (hg : checkRandomState I P rs = .ok g) :
    ∃ reserved : List Nat, reserved.Nodup ∧ (∀ v ∈ reserved, v < n) ∧ 1 ≤ reserved.length ∧
      (reserved.length : R) ≤ max 1 (n * trainOnly) ∧ (n * trainOnly : R) < reserved.length + 1 ∧
      ∃ train test, leaveKOutSplit I A B fl P X K trainOnly rs = .ok (train, test) ∧
        (∀ v ∈ reserved, ∀ c, ¬ Spec.StoredAt test.rows v c) ∧
        ∀ v, v ∉ reserved → K + 1 < (X.entries.map Prod.fst).count v → ∃ held : List (Nat × Nat × R), held.Nodup ∧
          held.length = K ∧ (∀ e ∈ held, e ∈ X.entries ∧ e.1 = v) ∧
          ∀ c, Spec.StoredAt test.rows v c ↔ ∃ e ∈ held, e.2.1 = c := by
  have hlen : ((X.entries.map Prod.fst).dedup.insertionSort (· ≤ ·)).length = n := by
    rw [List.length_insertionSort]
    have hp : (X.entries.map Prod.fst).dedup.Perm (List.range n) := by
      rw [List.perm_ext_iff_of_nodup (List.nodup_dedup _) List.nodup_range]
      intro u
      rw [List.mem_dedup, List.mem_range, hall u]
    rw [hp.length_eq, List.length_range]
  have hn0 : (0 : R) < n := by exact_mod_cast hn
  have hfl : ⌊(n : R) * trainOnly⌋₊ ≤ n := by
    have h1 : (n : R) * trainOnly ≤ n := by nlinarith
    have := Nat.floor_le_floor h1
    simpa using this
  have hsize : max 1 ⌊(n : R) * trainOnly⌋₊ ≤ n := max_le hn hfl
  obtain ⟨h1, h2, h3⟩ := hI g n _ hsize
  have hc : choosePositions I g n trainOnly = .ok (I.choice g n (max 1 ⌊(n : R) * trainOnly⌋₊)) := by
    unfold choosePositions
    simp only [if_neg (not_lt.mpr hsize)]
  obtain ⟨train, test, e, -, -, a1, a2, -⟩ := C31_split_partial I A B fl P X hP hnd
    (fun e he => by rw [hX, hall]; exact List.mem_map_of_mem he) K hK trainOnly ht0.le ht1 rs g hg _
    (by rw [if_pos ht0, hlen]; exact hc)
  refine ⟨_, h1, h3, by rw [h2]; exact le_max_left _ _, ?_, ?_, train, test, e, ?_, ?_⟩
  · rw [h2, Nat.cast_max, Nat.cast_one]
    exact max_le_max le_rfl (Nat.floor_le (by positivity))
  · rw [h2, Nat.cast_max]
    exact lt_of_lt_of_le (Nat.lt_floor_add_one _) (by gcongr; exact le_max_right _ _)
  · intro v hv c
    exact a2 v c (by rw [hX]; exact h3 v hv) (fun h => ((eligible_count _ _ _ _).mp h).2 hv)
  · intro v hv hcount
    exact a1 v ((eligible_count _ _ _ _).mpr ⟨hcount, hv⟩)

/-- **C31** (errors).  `K < 1` or a `train_only_size` outside `[0, 1)` raises `ValueError`. -/
theorem C31_errors [FloorSemiring R] (I : RngImpl R Gen) (A : ArgSortIdx Nat) (B : ArgSortIdx R) (fl : R → R)
    (P : Process R Gen) (X : Ratings R) (K : Int) (trainOnly : R) (rs : RandomState Gen)
    (h : K < 1 ∨ trainOnly < 0 ∨ 1 ≤ trainOnly) :
    leaveKOutSplit I A B fl P X K trainOnly rs = .error .valueError := by
  unfold leaveKOutSplit
  by_cases h1 : K < 1
  · simp only [if_pos h1]; rfl
  · have h2 : trainOnly < 0 ∨ 1 ≤ trainOnly := by
      rcases h with h | h
      · exact absurd h h1
      · exact h
    simp only [if_neg h1, if_pos h2]
    rfl

/-- Sorting positions by insertion (stable) is one possible `np.argsort`. -/
def insertionIdx {α : Type} (le : α → α → Bool) (d : α) (l : List α) : List Nat :=
  (List.range l.length).insertionSort fun i j => le (l.getD i d) (l.getD j d) = true

def insertionArgSortIdx (α : Type) [LinearOrder α] [Zero α] : ArgSortIdx α where
  idx l := insertionIdx (fun a b => decide (a ≤ b)) 0 l
  perm l := List.perm_insertionSort _ _
  sorted l := by
    have hp : (insertionIdx (fun a b => decide (a ≤ b)) 0 l).Perm (List.range l.length) :=
      List.perm_insertionSort _ _
    rw [filterMap_getElem 0 l _ (perm_lt hp), List.pairwise_map]
    unfold insertionIdx
    haveI : Std.Total (fun i j : Nat => decide (l.getD i 0 ≤ l.getD j 0) = true) :=
      ⟨fun a b => by simpa using le_total _ _⟩
    haveI : IsTrans Nat (fun i j : Nat => decide (l.getD i 0 ≤ l.getD j 0) = true) :=
      ⟨fun a b c h1 h2 => by
        simp only [decide_eq_true_eq] at *
        exact le_trans h1 h2⟩
    have := List.pairwise_insertionSort (fun i j : Nat => decide (l.getD i 0 ≤ l.getD j 0) = true)
      (List.range l.length)
    exact this.imp fun h => by simpa using h

/-- All draws 1/2. -/
def constRng : RngImpl Rat Unit where
  ofSeed _ := ()
  random _ n := List.replicate n (1 / 2)
  choice _ _ size := List.range size

def constProcess : Process Rat Unit := ⟨(), fun n => List.replicate n (1 / 2)⟩

/-- **C31 is violated** when an ineligible user id lies below an eligible one: `np.bincount` gives a
zero for it, and `_take_tails` returns the tail of a neighbouring user once more, so that the CSR matrix
adds the held-out value twice.  Here user 0 has one rating, user 1 three ratings of 5, 6 and 7; the test
matrix has 14 instead of 7. -/
theorem C31_gap_violated :
    leaveKOutSplit constRng (insertionArgSortIdx Nat) (insertionArgSortIdx Rat) id constProcess
      ⟨2, 3, [(0, 0, 4), (1, 0, 5), (1, 1, 6), (1, 2, 7)]⟩ 1 0 (.seed 0) =
      .ok (⟨2, 3, [[(0, 4)], [(0, 5), (1, 6)]]⟩, ⟨2, 3, [[], [(2, 14)]]⟩) := by
  decide +kernel

/-- **C31 is violated** for `train_only_size`: `_choose` draws *positions* among the users with ratings,
which are then compared with user *ids*.  Users 5 and 6 are the only users with ratings; reserving half of
them draws position 0, which is nobody's id, and no user is reserved. -/
theorem C31_reserved_violated :
    choosePositions constRng () 2 (1 / 2) = .ok [0] ∧
    ∃ train test, leaveKOutSplit constRng (insertionArgSortIdx Nat) (insertionArgSortIdx Rat) id constProcess
      ⟨7, 3, [(5, 0, 1), (5, 1, 1), (5, 2, 1), (6, 0, 1), (6, 1, 1), (6, 2, 1)]⟩ 1 (1 / 2) (.seed 0) =
      .ok (train, test) ∧ test.rows.map List.length = [0, 0, 0, 0, 0, 1, 1] := by
  refine ⟨by decide +kernel, ⟨7, 3, [[], [], [], [], [], [(0, 1), (1, 1)], [(0, 1), (1, 1)]]⟩,
    ⟨7, 3, [[], [], [], [], [], [(2, 1)], [(2, 6)]]⟩, by decide +kernel, by decide⟩

/-- Half of two users with three ratings each: user 0 is reserved, of user 1 one rating is held out (its value is counted
twice because user 0 leaves a gap, `C31_gap_violated`). -/
example : (∀ g n size, size ≤ n → (constRng.choice g n size).Nodup ∧ (constRng.choice g n size).length = size ∧
      ∀ i ∈ constRng.choice g n size, i < n) ∧
    leaveKOutSplit constRng (insertionArgSortIdx Nat) (insertionArgSortIdx Rat) id constProcess
      ⟨2, 3, [(0, 0, 1), (0, 1, 1), (0, 2, 1), (1, 0, 1), (1, 1, 1), (1, 2, 1)]⟩ 1 (1 / 2) (.seed 0) =
      .ok (⟨2, 3, [[(0, 1), (1, 1), (2, 1)], [(0, 1), (1, 1)]]⟩, ⟨2, 3, [[], [(2, 2)]]⟩) := by
  refine ⟨fun g n size h => ⟨List.nodup_range, List.length_range, fun i hi => ?_⟩, by decide +kernel⟩
  exact lt_of_lt_of_le (List.mem_range.mp hi) h

/-- A possible `np.argsort` that puts the later of equal elements first. -/
def lateArgSortIdx (α : Type) [LinearOrder α] [Zero α] : ArgSortIdx α where
  idx l := (List.range l.length).reverse.insertionSort fun i j => decide (l.getD i 0 ≤ l.getD j 0) = true
  perm l := (List.perm_insertionSort _ _).trans (List.reverse_perm _)
  sorted l := by
    have hp : ((List.range l.length).reverse.insertionSort
        fun i j => decide (l.getD i 0 ≤ l.getD j 0) = true).Perm (List.range l.length) :=
      (List.perm_insertionSort _ _).trans (List.reverse_perm _)
    rw [filterMap_getElem 0 l _ (perm_lt hp), List.pairwise_map]
    haveI : Std.Total (fun i j : Nat => decide (l.getD i 0 ≤ l.getD j 0) = true) :=
      ⟨fun a b => by simpa using le_total _ _⟩
    haveI : IsTrans Nat (fun i j : Nat => decide (l.getD i 0 ≤ l.getD j 0) = true) :=
      ⟨fun a b c h1 h2 => by
        simp only [decide_eq_true_eq] at *
        exact le_trans h1 h2⟩
    have := List.pairwise_insertionSort (fun i j : Nat => decide (l.getD i 0 ≤ l.getD j 0) = true)
      (List.range l.length).reverse
    exact this.imp fun h => by simpa using h

/-- **C31 is violated** in `float64` when a draw next to 1 rounds up to the next user and that user draws 0: three users with three
ratings each and `K = 1`; user 1 has nothing held out and user 2 two ratings.  (`np.argsort` is not stable.) -/
theorem C31_float_violated :
    let P : Process Rat Unit := ⟨(), fun n => (List.range n).map fun i =>
      if i = 3 then 1 - 1 / 2 ^ 53 else if i = 6 then 0 else 1 / 2⟩
    let X : Ratings Rat := ⟨3, 3, [(0, 0, 1), (0, 1, 2), (0, 2, 3), (1, 0, 4), (1, 1, 5), (1, 2, 6), (2, 0, 7), (2, 1, 8), (2, 2, 9)]⟩
    (∀ r ∈ P.globalRandom 9, 0 ≤ r ∧ r < 1) ∧
    ∃ train test, leaveKOutSplit constRng (insertionArgSortIdx Nat) (lateArgSortIdx Rat) (roundBits 53 (-1074)) P X 1 0 (.seed 0) =
      .ok (train, test) ∧ test.rows.map List.length = [1, 0, 2] := by
  refine ⟨by decide +kernel, ⟨3, 3, [[(1, 2), (2, 3)], [(0, 4), (1, 5), (2, 6)], [(2, 9)]]⟩,
    ⟨3, 3, [[(0, 1)], [], [(0, 7), (1, 8)]]⟩, by decide +kernel, rfl⟩

/-- The keys of three users in `float64`, with draws that are not tiny. -/
example : Spec.KeysApart (roundBits 53 (-1074)) [0, 1, 1, 2] ([1 / 2, 1 - 1 / 2 ^ 53, 1 / 3, 1 / 2 ^ 50] : List Rat) :=
  C31_keys_float 53 (-1074) 3 (by decide) (by decide) _ (by decide) _ (by decide +kernel)

/-- Two eligible users and one with too few ratings after them; the hypotheses of `C31_split_partial` hold. -/
example :
    let X : Ratings Rat := ⟨3, 3, [(0, 0, 1), (0, 1, 2), (0, 2, 3), (1, 0, 4), (1, 1, 5), (1, 2, 6),
      (2, 1, 8)]⟩
    leaveKOutSplit constRng (insertionArgSortIdx Nat) (insertionArgSortIdx Rat) id constProcess X 1 0
      (.seed 0) = .ok (⟨3, 3, [[(0, 1), (1, 2)], [(0, 4), (1, 5)], [(1, 8)]]⟩,
        ⟨3, 3, [[(2, 3)], [(2, 6)], []]⟩) ∧
    (X.entries.map fun e => (e.1, e.2.1)).Nodup := by
  decide +kernel

end Implicit
