import Verif.Lemmas.Split
import Mathlib.Algebra.Order.BigOperators.Group.List
/-!
# C30 — train_test_split partitions the ratings
-/

set_option linter.unusedSectionVars false

namespace Implicit

variable {R : Type} [LinearOrder R] [Field R] [IsStrictOrderedRing R] {Gen : Type}

/-- The triples that go to train and to test, for given draws. -/
def trainPart (X : Ratings R) (p : R) (draws : List R) : List (Nat × Nat × R) :=
  ((X.entries.zip draws).filter fun m => decide (m.2 < p)).map Prod.fst

def testPart (X : Ratings R) (p : R) (draws : List R) : List (Nat × Nat × R) :=
  ((X.entries.zip draws).filter fun m => decide (p ≤ m.2)).map Prod.fst

theorem testPart_eq (X : Ratings R) (p : R) (draws : List R) :
    testPart X p draws =
      ((X.entries.zip draws).filter fun m => !decide (m.2 < p)).map Prod.fst := by
  unfold testPart
  congr 1
  refine List.filter_congr fun m _ => ?_
  by_cases h : m.2 < p
  · simp [h]
  · simp [h, not_lt.mp h]

theorem zip_fst {X : Ratings R} {draws : List R} (hd : draws.length = X.entries.length) :
    (X.entries.zip draws).map Prod.fst = X.entries := by
  rw [List.map_fst_zip (by omega)]

theorem parts_total {X : Ratings R} {draws : List R} (hd : draws.length = X.entries.length) (p : R)
    (r c : Nat) : Spec.total (trainPart X p draws) r c + Spec.total (testPart X p draws) r c =
      Spec.total X.entries r c := by
  rw [testPart_eq]
  have := total_filter (fun d : R => decide (d < p)) (X.entries.zip draws) r c
  rwa [zip_fst hd] at this

/-- What negative values and zeros in test become. -/
theorem sumAt_clip (row : List (Nat × R)) (hnd : (row.map Prod.fst).Nodup) (c : Nat) :
    Spec.sumAt ((row.map fun e => (e.1, if e.2 < 0 then 0 else e.2)).filter
      fun e => decide (e.2 ≠ 0)) c = max 0 (Spec.sumAt row c) := by
  induction row with
  | nil => simp [Spec.sumAt]
  | cons e row ih =>
    rw [List.map_cons, List.nodup_cons] at hnd
    obtain ⟨i, v⟩ := e
    have ih := ih hnd.2
    rw [List.map_cons]
    have hs : ∀ (x : R) (l : List (Nat × R)), Spec.sumAt (((i, x) :: l).filter
        fun e => decide (e.2 ≠ 0)) c = (if i = c then x else 0) +
          Spec.sumAt (l.filter fun e => decide (e.2 ≠ 0)) c := by
      intro x l
      by_cases hx : x = 0
      · subst hx; rw [List.filter_cons_of_neg (by simp)]; simp
      · rw [List.filter_cons_of_pos (by simpa using hx)]; rfl
    rw [hs, ih]
    rw [show Spec.sumAt ((i, v) :: row) c = (if i = c then v else 0) + Spec.sumAt row c from rfl]
    by_cases hic : i = c
    · subst hic
      have : Spec.sumAt row i = 0 := sumAt_eq_zero fun ⟨w, hw⟩ =>
        hnd.1 (List.mem_map.mpr ⟨(i, w), hw, rfl⟩)
      rw [this]
      by_cases hv : v < 0
      · simp [hv, hv.le]
      · simp [hv, not_lt.mp hv]
    · simp [hic]

theorem entry_clip (X : Ratings R) (es : List (Nat × Nat × R)) {r : Nat} (hr : r < X.nrows) (c : Nat) :
    Spec.entry (clipNegative (X.toCsr es)).rows r c = max 0 (Spec.total es r c) := by
  unfold clipNegative Ratings.toCsr Spec.entry Spec.cell
  simp only
  have hlen : r < (cooToCsr X.nrows es).length := by rw [cooToCsr_length]; exact hr
  rw [List.getD_eq_getElem?_getD, List.getElem?_map, List.getElem?_eq_getElem hlen]
  simp only [Option.map_some, Option.getD_some]
  have hrow : (cooToCsr X.nrows es)[r] = coalesce (cooRow r es) := by
    rw [← cooToCsr_getD X.nrows es hr, List.getD_eq_getElem?_getD, List.getElem?_eq_getElem hlen]; rfl
  rw [hrow, sumAt_clip _ ((coalesce_sorted _).imp fun h => Nat.ne_of_lt h), sumAt_coalesce', sumAt_cooRow]

theorem total_nonneg {es : List (Nat × Nat × R)} (h : ∀ e ∈ es, 0 ≤ e.2.2) (r c : Nat) :
    0 ≤ Spec.total es r c := by
  unfold Spec.total
  refine List.sum_nonneg fun x hx => ?_
  obtain ⟨e, he, rfl⟩ := List.mem_map.mp hx
  exact h e (List.mem_filter.mp he).1

theorem split_eq (I : RngImpl R Gen) (P : Process R Gen) (X : Ratings R) (p : R)
    (rs : RandomState Gen) (g : Gen) (hg : checkRandomState I P rs = .ok g) :
    trainTestSplit I P X p rs = .ok (X.toCsr (trainPart X p (I.random g X.entries.length)),
      clipNegative (X.toCsr (testPart X p (I.random g X.entries.length)))) := by
  unfold trainTestSplit
  rw [hg]
  rfl

theorem mem_testPart {X : Ratings R} {p : R} {draws : List R} {e : Nat × Nat × R} :
    e ∈ testPart X p draws → e ∈ X.entries := by
  intro h
  obtain ⟨m, hm, rfl⟩ := List.mem_map.mp h
  exact (List.of_mem_zip (List.mem_filter.mp hm).1).1

theorem mem_trainPart {X : Ratings R} {p : R} {draws : List R} {e : Nat × Nat × R} :
    e ∈ trainPart X p draws → e ∈ X.entries := by
  intro h
  obtain ⟨m, hm, rfl⟩ := List.mem_map.mp h
  exact (List.of_mem_zip (List.mem_filter.mp hm).1).1

/-- **C30** (sum; partial: no negative ratings, see `C30_negative_violated`).  Train and test have the
shape of the ratings and add up to them, for every outcome of the draws, even if the input has repeated
triples. -/
theorem C30_sum_partial (I : RngImpl R Gen) (P : Process R Gen) (X : Ratings R) (p : R)
    (rs : RandomState Gen) (g : Gen) (hg : checkRandomState I P rs = .ok g)
    (hlen : (I.random g X.entries.length).length = X.entries.length)
    (hpos : ∀ e ∈ X.entries, 0 ≤ e.2.2) :
    ∃ train test, trainTestSplit I P X p rs = .ok (train, test) ∧
      (train.nrows, train.ncols, train.rows.length) = (X.nrows, X.ncols, X.nrows) ∧
      (test.nrows, test.ncols, test.rows.length) = (X.nrows, X.ncols, X.nrows) ∧
      ∀ r c, r < X.nrows →
        Spec.entry train.rows r c + Spec.entry test.rows r c = Spec.total X.entries r c := by
  refine ⟨_, _, split_eq I P X p rs g hg, ?_, ?_, ?_⟩
  · simp [Ratings.toCsr, cooToCsr_length]
  · simp [Ratings.toCsr, clipNegative, cooToCsr_length]
  · intro r c hr
    rw [entry_clip X _ hr, ← parts_total hlen p r c,
      max_eq_right (total_nonneg (fun e he => hpos e (mem_testPart he)) r c)]
    congr 1
    exact entry_cooToCsr X.nrows _ hr c

/-- With positive ratings, each cell given once, the cells stored in test are those of the test part. -/
theorem storedAt_testPart (X : Ratings R) (p : R) {draws : List R} (hlen : draws.length = X.entries.length)
    (hpos : ∀ e ∈ X.entries, 0 < e.2.2) (hnd : (X.entries.map fun e => (e.1, e.2.1)).Nodup) :
    ∀ r c, r < X.nrows → (Spec.StoredAt (clipNegative (X.toCsr (testPart X p draws))).rows r c ↔
        ∃ v, (r, c, v) ∈ testPart X p draws) := by
  intro r c hr
  rw [← storedAt_cooToCsr X.nrows _ hr c]
  have hlen' : r < (cooToCsr X.nrows (testPart X p draws)).length := by
    rw [cooToCsr_length]; exact hr
  have hrow' : (cooToCsr X.nrows (testPart X p draws))[r] = coalesce (cooRow r (testPart X p draws)) := by
    rw [← cooToCsr_getD X.nrows _ hr, List.getD_eq_getElem?_getD, List.getElem?_eq_getElem hlen']; rfl
  unfold Spec.StoredAt clipNegative Ratings.toCsr
  simp only
  rw [List.getD_eq_getElem?_getD, List.getElem?_map, List.getElem?_eq_getElem hlen',
    List.getD_eq_getElem?_getD, List.getElem?_eq_getElem hlen']
  simp only [Option.map_some, Option.getD_some, hrow']
  unfold Spec.Stored
  constructor
  · rintro ⟨v, hv⟩
    obtain ⟨e, he, hev⟩ := List.mem_map.mp (List.mem_filter.mp hv).1
    have h1 : e.1 = c := (Prod.mk.inj hev).1
    exact ⟨e.2, by rw [← h1]; exact he⟩
  · rintro ⟨v, hv⟩
    have hs := (mem_coalesce _ _ _).mp hv
    have hvp : 0 < v := by
      rw [hs.2, sumAt_cooRow]
      obtain ⟨w, hw⟩ := hs.1
      have hw := mem_cooRow.mp hw
      have hndt : ((testPart X p draws).map fun e => (e.1, e.2.1)).Nodup := by
        have hsub : (testPart X p draws).Sublist X.entries := by
          have := (List.filter_sublist (l := X.entries.zip draws)
            (p := fun m => decide (p ≤ m.2))).map Prod.fst
          rwa [zip_fst hlen] at this
        exact hnd.sublist (hsub.map _)
      have := total_of_mem hndt hw
      simp only at this
      rw [this]
      exact hpos _ (mem_testPart hw)
    refine ⟨v, List.mem_filter.mpr ⟨List.mem_map.mpr ⟨(c, v), hv, ?_⟩, by simpa using hvp.ne'⟩⟩
    simp [not_lt.mpr hvp.le]

/-- **C30** (partition; partial: positive ratings, each cell given once).  Every rating is stored, with
its value, in exactly one of the two matrices, and nothing else is stored in them. -/
theorem C30_partition_partial (I : RngImpl R Gen) (P : Process R Gen) (X : Ratings R) (p : R)
    (rs : RandomState Gen) (g : Gen) (hg : checkRandomState I P rs = .ok g)
    (hlen : (I.random g X.entries.length).length = X.entries.length)
    (hpos : ∀ e ∈ X.entries, 0 < e.2.2) (hnd : (X.entries.map fun e => (e.1, e.2.1)).Nodup)
    (hrow : ∀ e ∈ X.entries, e.1 < X.nrows) :
    ∃ train test, trainTestSplit I P X p rs = .ok (train, test) ∧
      (∀ e ∈ X.entries,
        (Spec.entry train.rows e.1 e.2.1 = e.2.2 ∧ Spec.StoredAt train.rows e.1 e.2.1 ∧
          ¬ Spec.StoredAt test.rows e.1 e.2.1) ∨
        (Spec.entry test.rows e.1 e.2.1 = e.2.2 ∧ Spec.StoredAt test.rows e.1 e.2.1 ∧
          ¬ Spec.StoredAt train.rows e.1 e.2.1)) ∧
      ∀ r c, r < X.nrows → Spec.StoredAt train.rows r c ∨ Spec.StoredAt test.rows r c →
        ∃ v, (r, c, v) ∈ X.entries := by
  set draws := I.random g X.entries.length with hdraws
  have hclip := storedAt_testPart X p hlen hpos hnd
  have hsubl : ∀ (q : R → Bool), (((X.entries.zip draws).filter fun m => q m.2).map
      Prod.fst).Sublist X.entries := by
    intro q
    have := (List.filter_sublist (l := X.entries.zip draws) (p := fun m => q m.2)).map Prod.fst
    rwa [zip_fst hlen] at this
  have hndtr : ((trainPart X p draws).map fun e => (e.1, e.2.1)).Nodup :=
    hnd.sublist ((hsubl fun d => decide (d < p)).map _)
  have hndte : ((testPart X p draws).map fun e => (e.1, e.2.1)).Nodup :=
    hnd.sublist ((hsubl fun d => decide (p ≤ d)).map _)
  -- a triple is in one of the parts
  have hone : ∀ e ∈ X.entries, e ∈ trainPart X p draws ∨ e ∈ testPart X p draws := by
    intro e he
    rw [← zip_fst hlen] at he
    obtain ⟨m, hm, rfl⟩ := List.mem_map.mp he
    by_cases hmp : m.2 < p
    · exact Or.inl (List.mem_map.mpr ⟨m, List.mem_filter.mpr ⟨hm, by simpa using hmp⟩, rfl⟩)
    · exact Or.inr (List.mem_map.mpr ⟨m, List.mem_filter.mpr ⟨hm, by simpa using hmp⟩, rfl⟩)
  -- and not in both
  have hnot : ∀ r c v w, (r, c, v) ∈ trainPart X p draws → (r, c, w) ∈ testPart X p draws → False := by
    intro r c v w hv hw
    have hv' := mem_trainPart hv
    have hw' := mem_testPart hw
    have hvw : ((r, c, v) : Nat × Nat × R) = (r, c, w) :=
      List.inj_on_of_nodup_map hnd hv' hw' rfl
    rw [← hvw] at hw
    obtain ⟨m, hm, hme⟩ := List.mem_map.mp hv
    obtain ⟨m', hm', hme'⟩ := List.mem_map.mp hw
    have hndz : ((X.entries.zip draws).map Prod.fst).Nodup := by
      rw [zip_fst hlen]; exact List.Nodup.of_map _ hnd
    have : m = m' := List.inj_on_of_nodup_map hndz (List.mem_filter.mp hm).1 (List.mem_filter.mp hm').1
      (hme.trans hme'.symm)
    subst this
    have h1 := (List.mem_filter.mp hm).2
    have h2 := (List.mem_filter.mp hm').2
    simp only [decide_eq_true_eq] at h1 h2
    exact absurd h1 (not_lt.mpr h2)
  refine ⟨_, _, split_eq I P X p rs g hg, ?_, ?_⟩
  · rintro ⟨r, c, v⟩ he
    have hr := hrow _ he
    simp only at hr ⊢
    rcases hone _ he with h | h
    · left
      refine ⟨?_, (storedAt_cooToCsr X.nrows _ hr c).mpr ⟨v, h⟩, ?_⟩
      · exact (entry_cooToCsr X.nrows _ hr c).trans (total_of_mem hndtr h)
      · rw [hclip r c hr]
        rintro ⟨w, hw⟩
        exact hnot r c v w h hw
    · right
      refine ⟨?_, (hclip r c hr).mpr ⟨v, h⟩, ?_⟩
      · rw [entry_clip X _ hr]
        have := total_of_mem hndte h
        simp only at this
        rw [this, max_eq_right (hpos _ he).le]
      · intro hs
        obtain ⟨w, hw⟩ := (storedAt_cooToCsr X.nrows _ hr c).mp hs
        exact hnot r c w v hw h
  · intro r c hr hs
    rcases hs with hs | hs
    · obtain ⟨v, hv⟩ := (storedAt_cooToCsr X.nrows _ hr c).mp hs
      exact ⟨v, mem_trainPart hv⟩
    · obtain ⟨v, hv⟩ := (hclip r c hr).mp hs
      exact ⟨v, mem_testPart hv⟩

/-- A generator whose draws are all `1/2`. -/
def halfRng : RngImpl Rat Unit where
  ofSeed _ := ()
  random _ n := List.replicate n (1 / 2)
  choice _ _ size := List.range size

def halfProcess : Process Rat Unit := ⟨(), fun n => List.replicate n (1 / 2)⟩

/-- **C30 is violated** for negative ratings (and stored zeros): in test they are dropped.  Here the only
rating, -3, ends up in neither matrix. -/
theorem C30_negative_violated :
    trainTestSplit halfRng halfProcess ⟨1, 1, [(0, 0, -3)]⟩ (1 / 5) (.seed 0) =
      .ok (⟨1, 1, [[]]⟩, ⟨1, 1, [[]]⟩) ∧
    trainTestSplit halfRng halfProcess ⟨1, 2, [(0, 1, 0)]⟩ (1 / 5) (.seed 0) =
      .ok (⟨1, 2, [[]]⟩, ⟨1, 2, [[]]⟩) := by
  decide +kernel

/-- A generator with the draws 1/4, 3/4, 1/4, …: the hypotheses hold and the ratings are split. -/
example :
    let I : RngImpl Rat Unit := ⟨fun _ => (), fun _ n => (List.range n).map fun i =>
      if i % 2 = 0 then 1 / 4 else 3 / 4, fun _ _ s => List.range s⟩
    let X : Ratings Rat := ⟨2, 3, [(0, 1, 5), (0, 2, 2), (1, 0, 7)]⟩
    (I.random () 3).length = 3 ∧
    trainTestSplit I halfProcess X (1 / 2) (.seed 0) =
      .ok (⟨2, 3, [[(1, 5)], [(0, 7)]]⟩, ⟨2, 3, [[(2, 2)], []]⟩) := by
  decide +kernel

end Implicit
