import Verif.Props.C13
import Verif.Props.C30
import Verif.Props.C33
/-!
# C70: split, train, evaluate
-/

set_option linter.unusedSectionVars false

namespace Implicit

open Finset
open Spec (ValidRow)

variable {R : Type} [LinearOrder R] [Field R] [IsStrictOrderedRing R] {f : Nat} {Gen : Type}

/-- Scaling keeps the columns. -/
theorem alphaRows_valid {alpha : R} {C : SpRows R} {n : Nat} (h : ∀ row ∈ C, ValidRow n row) :
    ∀ row ∈ applyAlpha alpha C, ValidRow n row := by
  intro row hrow
  unfold applyAlpha scaleRows at hrow
  split at hrow
  · obtain ⟨r, hr, rfl⟩ := List.mem_map.mp hrow
    obtain ⟨h1, h2⟩ := h r hr
    refine ⟨?_, ?_⟩
    · rw [List.map_map]
      exact h1
    · intro e he
      obtain ⟨e', he', rfl⟩ := List.mem_map.mp he
      exact h2 e' he'
  · exact h row hrow

/-- ALS training with positive regularisation succeeds and keeps the shapes, for every solver and every number of iterations. -/
theorem alsFit_total (S : Solver f R) (tol : R) (p : ALSParams R) (hreg : 0 < p.regularization) (C : SpRows R) (init : Factors f R)
    (hC : C.length = init.user.length) (hv : ∀ row ∈ C, ValidRow init.item.length row) :
    ∃ m, alsFit S tol p init.item.length C init = .ok m ∧ m.user.length = init.user.length ∧
      m.item.length = init.item.length := by
  obtain ⟨trace, e, -, -, hsh⟩ := C13_training S tol p hreg (applyAlpha p.alpha C) p.iterations init
    (by rw [← hC]; unfold applyAlpha scaleRows; split <;> simp) (alphaRows_valid hv)
  refine ⟨trace.getLast?.getD init, ?_, ?_⟩
  · unfold alsFit
    simp only
    rw [e]
    rfl
  · cases h : trace.getLast? with
    | none => exact ⟨rfl, rfl⟩
    | some m => exact hsh m (List.mem_of_getLast? h)

/-- What is evaluated: `r` are the textbook metrics of the lists `rank u` against the test matrix. -/
structure Spec.Evaluation (cg : Nat → R) (K items : Nat) (test : SpRows R) (rank : Nat → List Int) (r : Metrics R) : Prop where
  precision : r.precision = (∑ u ∈ Spec.evaluated test, (Spec.hits (Spec.relevant (test.getD u [])) (rank u) : R)) /
    ∑ u ∈ Spec.evaluated test, (Spec.bestHits (Spec.relevant (test.getD u [])) K : R)
  map : r.map = (∑ u ∈ Spec.evaluated test, Spec.averagePrecision (Spec.relevant (test.getD u [])) (rank u) K) /
    ((Spec.evaluated test).card : R)
  ndcg : r.ndcg = (∑ u ∈ Spec.evaluated test, Spec.ndcg cg (Spec.relevant (test.getD u [])) (rank u) K) /
    ((Spec.evaluated test).card : R)
  auc : r.auc = (∑ u ∈ Spec.evaluated test, Spec.auc (Spec.relevant (test.getD u [])) (Spec.allItems items) (rank u)) /
    ((Spec.evaluated test).card : R)

/-- The list of user `u` is the best `K` of the items the user does not have in `train`, by the scores of the model `m`, followed -
only if there are fewer than `K` of these - by items of the user's training row. -/
def Spec.UnseenFirst (m : Factors f R) (train : SpRows R) (K u : Nat) (ranked : List Int) : Prop :=
  ∃ good rest : List (Nat × R), ranked = (good ++ rest).map (fun p => (p.1 : Int)) ∧
    Spec.IsRanking K (fun i => i < m.item.length ∧ ¬ Spec.StoredAt train u i)
      (fun i => (m.item[i]?).map (dot (m.user.getD u 0))) good ∧
    ∀ p ∈ rest, Spec.StoredAt train u p.1

/-- **Train, then evaluate**, on any two matrices of the same shape: training succeeds, the metrics exist and lie in [0,1], and they are
the textbook metrics of lists that put unseen items first. -/
theorem C70_train_evaluate (H : HeapImpl (R × Nat) pairLt) (neginf : R) (S : Solver f R) (tol : R) (p : ALSParams R)
    (hreg : 0 < p.regularization) (init : Factors f R) (K : Nat) (hK : 1 ≤ K) (hKi : K ≤ init.item.length)
    (cg : Nat → R) (hcg : ∀ i, 0 < cg i) (hmono : ∀ i j, i ≤ j → cg j ≤ cg i) (train test : Csr R)
    (hu : train.rows.length = init.user.length) (hi : train.ncols = init.item.length)
    (hu' : test.rows.length = init.user.length) (hi' : test.ncols = init.item.length)
    (htrain : ∀ row ∈ train.rows, ValidRow train.ncols row)
    (htest : ∀ u ∈ Spec.evaluated test.rows, Spec.ValidTest test.ncols (test.rows.getD u []))
    (hne : (Spec.evaluated test.rows).Nonempty)
    (hlow : ∀ m, alsFit S tol p train.ncols train.rows init = .ok m → ∀ x ∈ m.user, ∀ y ∈ m.item, neginf < dot x y) :
    ∃ m r rank, alsFit S tol p train.ncols train.rows init = .ok m ∧
      trainAndEvaluate H neginf S tol p init K cg train test = .ok r ∧ Spec.InUnit r ∧
      Spec.Evaluation cg K test.ncols test.rows rank r ∧
      ∀ u ∈ Spec.evaluated test.rows, Spec.ValidRanking test.ncols K (rank u) ∧ Spec.UnseenFirst m train.rows K u (rank u) := by
  rw [hi] at htrain hlow ⊢
  obtain ⟨m, hfit, hmu, hmi⟩ := alsFit_total S tol p hreg train.rows init hu htrain
  have hlen : ∀ u ∈ Spec.evaluated test.rows, u < m.user.length ∧ u < train.rows.length := by
    intro u h
    have := mem_range.mp (mem_filter.mp h).1
    omega
  obtain ⟨rank, hrec, hrank⟩ := mfEvaluate_ok H neginf m (fun _ => .error .notImplemented) train.rows
    (fun row hrow e he => by rw [hmi]; exact (htrain row hrow).lt e he) (hlow m hfit) K hK (by omega)
    (Spec.evaluated test.rows) hlen
  have hrec' : ∀ us : List Nat, us ≠ [] → (∀ u ∈ us, u ∈ Spec.evaluated test.rows) →
      mfEvaluate H neginf m noRecalc train.rows K us = .ok (us.map rank) := by
    intro us h1 h2
    rw [← hrec us h1 h2]
    rfl
  have hvr : ∀ u ∈ Spec.evaluated test.rows, Spec.ValidRanking test.ncols K (rank u) := by
    intro u h
    rw [hi', ← hmi]
    exact (hrank u h).1
  have hmet := C34_metrics _ metricsBatchSize (by decide) K test.ncols hK cg test.rows rank hne htest hvr hrec'
  obtain ⟨r, hr, hunit⟩ := C33_unit_partial _ metricsBatchSize (by decide) K test.ncols hK cg hcg hmono test.rows rank hne htest
    hvr hrec'
  rw [hr] at hmet
  injection hmet with hmet
  refine ⟨m, r, rank, hfit, ?_, hunit, ?_, ?_⟩
  · unfold trainAndEvaluate
    rw [hi, hfit]
    exact hr
  · subst hmet
    exact ⟨rfl, rfl, rfl, rfl⟩
  · intro u h
    refine ⟨hvr u h, ?_⟩
    obtain ⟨good, rest, h1, h2, h3⟩ := (hrank u h).2
    have hst : ∀ i, Spec.StoredAt train.rows u i ↔ ∃ e ∈ train.rows.getD u [], e.1 = i := by
      intro i
      unfold Spec.StoredAt Spec.Stored
      constructor
      · rintro ⟨v, hv⟩; exact ⟨_, hv, rfl⟩
      · rintro ⟨⟨a, v⟩, he, rfl⟩; exact ⟨v, he⟩
    refine ⟨good, rest, h1, ?_, fun q hq => (hst _).2 (h3 q hq)⟩
    have : (fun i => i < m.item.length ∧ ¬ Spec.StoredAt train.rows u i) =
        fun i => i < m.item.length ∧ ∀ e ∈ train.rows.getD u [], e.1 ≠ i := by
      funext i
      rw [hst]
      push Not
      rfl
    rw [this]
    exact h2

/-- A rating of user `u` on item `i` is counted as relevant exactly if it is stored in test. -/
theorem mem_relevant_iff (test : SpRows R) (u : Nat) (x : Int) :
    x ∈ Spec.relevant (test.getD u []) ↔ ∃ i : Nat, x = i ∧ Spec.StoredAt test u i := by
  unfold Spec.relevant Spec.StoredAt Spec.Stored
  rw [List.mem_toFinset, List.mem_map]
  constructor
  · rintro ⟨⟨i, v⟩, he, rfl⟩; exact ⟨i, rfl, v, he⟩
  · rintro ⟨i, rfl, v, hv⟩; exact ⟨(i, v), hv, rfl⟩

/-- Rows built from triples are valid. -/
theorem toCsr_valid (X : Ratings R) {es : List (Nat × Nat × R)} (h : ∀ e ∈ es, e.2.1 < X.ncols) :
    ∀ row ∈ (X.toCsr es).rows, ValidRow X.ncols row := by
  intro row hrow
  obtain ⟨r, hr, rfl⟩ := List.mem_map.mp hrow
  refine ⟨(coalesce_sorted _).imp fun hab => Nat.ne_of_lt hab, fun e he => ?_⟩
  obtain ⟨⟨v, hv⟩, -⟩ := (mem_coalesce _ e.1 e.2).mp he
  obtain ⟨t, ht, hte⟩ := List.mem_map.mp hv
  have := h t (List.mem_filter.mp ht).1
  rw [(Prod.mk.inj hte).1] at this
  exact this

/-- **Split, train, evaluate.**  For positive ratings (each cell once, in range), whatever the draws - as long as one rating goes to
test - and if no user rated every item, the run ends with metrics in [0,1] that are the textbook metrics of lists with the best unseen
items first; every rating is in exactly one of train and test, so what is counted as a hit was not trained on. -/
theorem C70_split_evaluate (I : RngImpl R Gen) (P : Process R Gen) (X : Ratings R) (share : R) (rs : RandomState Gen) (g : Gen)
    (hg : checkRandomState I P rs = .ok g) (hlen : (I.random g X.entries.length).length = X.entries.length)
    (hpos : ∀ e ∈ X.entries, 0 < e.2.2) (hnd : (X.entries.map fun e => (e.1, e.2.1)).Nodup)
    (hrange : ∀ e ∈ X.entries, e.1 < X.nrows ∧ e.2.1 < X.ncols)
    (hsome : ∃ d ∈ I.random g X.entries.length, share ≤ d)
    (hfull : ∀ u, u < X.nrows → ∃ i, i < X.ncols ∧ ∀ v, (u, i, v) ∉ X.entries)
    (H : HeapImpl (R × Nat) pairLt) (neginf : R) (S : Solver f R) (tol : R) (p : ALSParams R)
    (hreg : 0 < p.regularization) (init : Factors f R) (hu : init.user.length = X.nrows) (hi : init.item.length = X.ncols)
    (K : Nat) (hK : 1 ≤ K) (hKi : K ≤ X.ncols)
    (cg : Nat → R) (hcg : ∀ i, 0 < cg i) (hmono : ∀ i j, i ≤ j → cg j ≤ cg i)
    (hlow : ∀ train test m, trainTestSplit I P X share rs = .ok (train, test) → alsFit S tol p X.ncols train.rows init = .ok m →
      ∀ x ∈ m.user, ∀ y ∈ m.item, neginf < dot x y) :
    ∃ train test m r rank, trainTestSplit I P X share rs = .ok (train, test) ∧
      alsFit S tol p X.ncols train.rows init = .ok m ∧
      evaluationRun I P X share rs H neginf S tol p init K cg = .ok r ∧ Spec.InUnit r ∧
      Spec.Evaluation cg K X.ncols test.rows rank r ∧
      (∀ u ∈ Spec.evaluated test.rows, Spec.ValidRanking X.ncols K (rank u) ∧ Spec.UnseenFirst m train.rows K u (rank u)) ∧
      (∀ e ∈ X.entries, Spec.StoredAt train.rows e.1 e.2.1 ↔ ¬ Spec.StoredAt test.rows e.1 e.2.1) ∧
      ∀ u ∈ Spec.evaluated test.rows, ∀ x ∈ Spec.relevant (test.rows.getD u []), ∃ (i : Nat) (v : R), x = i ∧
        (u, i, v) ∈ X.entries ∧ ¬ Spec.StoredAt train.rows u i := by
  obtain ⟨draws, hdraws⟩ : ∃ draws, draws = I.random g X.entries.length := ⟨_, rfl⟩
  have hsplit := split_eq I P X share rs g hg
  obtain ⟨train, htr⟩ : ∃ train, train = X.toCsr (trainPart X share (I.random g X.entries.length)) := ⟨_, rfl⟩
  obtain ⟨test, hte⟩ : ∃ test, test = clipNegative (X.toCsr (testPart X share (I.random g X.entries.length))) := ⟨_, rfl⟩
  have hstored := storedAt_testPart X share hlen hpos hnd
  rw [← hte] at hstored
  have hpart := C30_partition_partial I P X share rs g hg hlen hpos hnd (fun e he => (hrange e he).1)
  obtain ⟨tr, te, hs, hone, hback⟩ := hpart
  rw [← htr, ← hte] at hsplit
  rw [hsplit] at hs
  injection hs with hs
  injection hs with h1 h2
  subst h1 h2
  have htestlen : test.rows.length = X.nrows := by rw [hte]; simp [clipNegative, Ratings.toCsr, cooToCsr_length]
  have hval : ∀ u ∈ Spec.evaluated test.rows, Spec.ValidTest X.ncols (test.rows.getD u []) := by
    intro u hu
    have hur : u < X.nrows := by
      have := mem_range.mp (mem_filter.mp hu).1
      omega
    have hcell : ∀ i, Spec.StoredAt test.rows u i → ∃ v, (u, i, v) ∈ X.entries := fun i hi => hback u i hur (Or.inr hi)
    have hlt : ∀ i, Spec.StoredAt test.rows u i → i < X.ncols := fun i hi => by
      obtain ⟨v, hv⟩ := hcell i hi
      exact (hrange _ hv).2
    refine ⟨fun e he => hlt e.1 ⟨e.2, he⟩, ?_⟩
    obtain ⟨i, hi, hno⟩ := hfull u hur
    have hsub : Spec.relevant (test.rows.getD u []) ⊂ (range X.ncols).image (fun i : Nat => (i : Int)) := by
      rw [Finset.ssubset_iff_of_subset]
      · refine ⟨(i : Int), mem_image.mpr ⟨i, mem_range.mpr hi, rfl⟩, ?_⟩
        rw [mem_relevant_iff]
        rintro ⟨j, hj, hst⟩
        have : i = j := Int.ofNat.inj hj
        subst this
        obtain ⟨v, hv⟩ := hcell i hst
        exact hno v hv
      · intro x hx
        obtain ⟨j, rfl, hst⟩ := (mem_relevant_iff _ _ _).mp hx
        exact mem_image.mpr ⟨j, mem_range.mpr (hlt j hst), rfl⟩
    calc (Spec.relevant (test.rows.getD u [])).card < ((range X.ncols).image (fun i : Nat => (i : Int))).card := card_lt_card hsub
      _ = X.ncols := by rw [card_image_of_injective (f := fun i : Nat => (i : Int)) _ (fun a b h => Int.ofNat.inj h), card_range]
  have hne : (Spec.evaluated test.rows).Nonempty := by
    obtain ⟨d, hd, hsd⟩ := hsome
    obtain ⟨k, hk, rfl⟩ := List.mem_iff_getElem.mp hd
    have hk' : k < X.entries.length := by omega
    have hmem : X.entries[k] ∈ testPart X share (I.random g X.entries.length) := by
      unfold testPart
      refine List.mem_map.mpr ⟨(X.entries[k], (I.random g X.entries.length)[k]), List.mem_filter.mpr ⟨?_, by simpa using hsd⟩, rfl⟩
      rw [List.mem_iff_getElem]
      exact ⟨k, by rw [List.length_zip]; omega, by rw [List.getElem_zip]⟩
    have hr := (hrange _ (List.getElem_mem hk')).1
    have hst := (hstored X.entries[k].1 X.entries[k].2.1 hr).mpr ⟨X.entries[k].2.2, hmem⟩
    refine ⟨X.entries[k].1, mem_filter.mpr ⟨mem_range.mpr (by omega), ?_⟩⟩
    obtain ⟨v, hv⟩ := hst
    exact List.ne_nil_of_mem hv
  have hncols : train.ncols = X.ncols ∧ test.ncols = X.ncols := by rw [htr, hte]; exact ⟨rfl, rfl⟩
  have hlow' := fun m => hlow train test m hsplit
  rw [← hncols.1] at hlow'
  obtain ⟨m, r, rank, hfit, hrun, hunit, hev, hrank⟩ := C70_train_evaluate H neginf S tol p hreg init K hK (by omega) cg hcg hmono
    train test (by rw [htr, hu]; simp [Ratings.toCsr, cooToCsr_length]) (by rw [hncols.1, hi]) (by omega) (by rw [hncols.2, hi])
    (by rw [hncols.1, htr]; exact toCsr_valid X fun e he => (hrange e (mem_trainPart he)).2)
    (by rw [hncols.2]; exact hval) hne hlow'
  rw [hncols.1] at hfit
  rw [hncols.2] at hev hrank
  refine ⟨train, test, m, r, rank, hsplit, hfit, ?_, hunit, hev, hrank, ?_, ?_⟩
  · unfold evaluationRun
    rw [hsplit]
    exact hrun
  · intro e he
    rcases hone e he with ⟨-, h1, h2⟩ | ⟨-, h1, h2⟩
    · exact ⟨fun _ => h2, fun _ => h1⟩
    · exact ⟨fun h => absurd h h2, fun h => absurd h1 h⟩
  · intro u hu x hx
    obtain ⟨i, rfl, hst⟩ := (mem_relevant_iff _ _ _).mp hx
    have hur : u < X.nrows := by
      have := mem_range.mp (mem_filter.mp hu).1
      omega
    obtain ⟨v, hv⟩ := hback u i hur (Or.inr hst)
    refine ⟨i, v, rfl, hv, fun htr => ?_⟩
    rcases hone _ hv with ⟨-, -, h2⟩ | ⟨-, -, h2⟩
    · exact h2 hst
    · exact h2 htr

/-- If every rating is drawn into train - always for a share above every draw, and with some probability for any share - the run ends in
a division by zero, whatever the model. -/
theorem C70_nothing_held_out_violated (I : RngImpl R Gen) (P : Process R Gen) (X : Ratings R) (share : R) (rs : RandomState Gen)
    (g : Gen) (hg : checkRandomState I P rs = .ok g) (hall : ∀ d ∈ I.random g X.entries.length, d < share)
    (hrange : ∀ e ∈ X.entries, e.1 < X.nrows ∧ e.2.1 < X.ncols)
    (H : HeapImpl (R × Nat) pairLt) (neginf : R) (S : Solver f R) (tol : R) (p : ALSParams R)
    (hreg : 0 < p.regularization) (init : Factors f R) (hu : init.user.length = X.nrows) (hi : init.item.length = X.ncols)
    (K : Nat) (cg : Nat → R) :
    evaluationRun I P X share rs H neginf S tol p init K cg = .error .zeroDivision := by
  have hsplit := split_eq I P X share rs g hg
  have htest : testPart X share (I.random g X.entries.length) = [] := by
    unfold testPart
    rw [List.map_eq_nil_iff, List.filter_eq_nil_iff]
    intro a ha
    have := hall a.2 (List.of_mem_zip ha).2
    simpa using this
  obtain ⟨m, hfit, -⟩ := alsFit_total S tol p hreg (X.toCsr (trainPart X share (I.random g X.entries.length))).rows init
    (by rw [hu]; simp [Ratings.toCsr, cooToCsr_length])
    (by rw [hi]; exact toCsr_valid X fun e he => (hrange e (mem_trainPart he)).2)
  rw [hi] at hfit
  have hfit' : alsFit S tol p (X.toCsr (trainPart X share (I.random g X.entries.length))).ncols
    (X.toCsr (trainPart X share (I.random g X.entries.length))).rows init = .ok m := hfit
  have hnone : testUsers (clipNegative (X.toCsr (testPart X share (I.random g X.entries.length)))).rows = [] := by
    rw [htest]
    unfold testUsers
    rw [List.filter_eq_nil_iff]
    intro u _
    simp only [clipNegative, Ratings.toCsr, cooToCsr, List.filter_nil, List.map_nil, List.getD_eq_getElem?_getD, List.getElem?_map]
    cases (List.range X.nrows)[u]? <;> simp [coalesce]
  unfold evaluationRun trainAndEvaluate
  rw [hsplit]
  simp only [bind, Except.bind]
  rw [hfit']
  simp only [rankingMetrics, hnone, metricsLoop, List.length_nil, bind, Except.bind]
  rfl

/-- Two users, three items; the second and the fourth rating are held out. -/
def evalRng : RngImpl Rat Unit :=
  ⟨fun _ => (), fun _ n => (List.range n).map fun i => if i % 2 = 0 then 1 / 4 else 3 / 4, fun _ _ s => List.range s⟩

/-- A user whose ratings cover all items and are all held out: division by zero in the AUC, though another user could be evaluated. -/
theorem C70_all_items_violated :
    let X : Ratings Rat := ⟨2, 2, [(1, 1, 1), (0, 0, 5), (1, 0, 2), (0, 1, 2)]⟩
    let p : ALSParams Rat := ⟨1, 1, true, false, 3, 1⟩
    (match evaluationRun evalRng halfProcess X (1 / 2) (.seed 0) insertionHeap (-1000) (scalarSolver Rat) 0 p
      ⟨[![1], ![1]], [![1], ![2]]⟩ 1 exampleCg with
      | .error .zeroDivision => true
      | _ => false) = true := by
  decide +kernel

/-- A run on two users and three items, `K = 2`, two iterations. -/
example :
    let X : Ratings Rat := ⟨2, 3, [(0, 1, 5), (0, 2, 2), (1, 0, 7), (1, 1, 1)]⟩
    let p : ALSParams Rat := ⟨1, 1, true, false, 3, 2⟩
    let init : Factors 1 Rat := ⟨[![1], ![1]], [![1], ![2], ![3]]⟩
    evaluationRun evalRng halfProcess X (1 / 2) (.seed 0) insertionHeap (-1000) (scalarSolver Rat) 0 p init 2 exampleCg =
      .ok ⟨1, 3 / 4, 3 / 4, 3 / 4⟩ := by
  decide +kernel

/-- `C70_split_evaluate` for that run. -/
example := C70_split_evaluate evalRng halfProcess ⟨2, 3, [(0, 1, 5), (0, 2, 2), (1, 0, 7), (1, 1, 1)]⟩ (1 / 2) (.seed 0) () rfl (by decide)
  (by decide +kernel) (by decide) (by decide) ⟨3 / 4, by decide +kernel, by norm_num⟩
  (fun u hu => by
    rcases u with _ | _ | u
    · exact ⟨0, by decide, by simp⟩
    · exact ⟨2, by decide, by simp⟩
    · simp at hu)
  insertionHeap (-1000) (scalarSolver Rat) 0 ⟨1, 1, true, false, 3, 2⟩ (by norm_num) ⟨[![1], ![1]], [![1], ![2], ![3]]⟩ rfl rfl 2 (by decide)
  (by decide) exampleCg (fun i => by unfold exampleCg; positivity)
  (fun i j h => by
    unfold exampleCg
    have : (i : Rat) ≤ j := by exact_mod_cast h
    gcongr)
  (fun train test m h1 h2 => by
    have e : trainTestSplit evalRng halfProcess (⟨2, 3, [(0, 1, 5), (0, 2, 2), (1, 0, 7), (1, 1, 1)]⟩ : Ratings Rat) (1 / 2) (.seed 0) =
        .ok (⟨2, 3, [[(1, 5)], [(0, 7)]]⟩, ⟨2, 3, [[(2, 2)], [(1, 1)]]⟩) := by decide +kernel
    rw [e] at h1
    cases h1
    have k : (alsFit (scalarSolver Rat) 0 ⟨1, 1, true, false, 3, 2⟩ 3 [[(1, 5)], [(0, 7)]] ⟨[![1], ![1]], [![1], ![2], ![3]]⟩).toOption.any
        (fun m => decide (∀ x ∈ m.user, ∀ y ∈ m.item, -1000 < dot x y)) = true := by decide +kernel
    rw [h2] at k
    simpa [Except.toOption] using k)

end Implicit
