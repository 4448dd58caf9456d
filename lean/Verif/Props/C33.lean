import Verif.Props.C34
import Verif.Props.C03
import Verif.Props.C04
import Verif.Model.NearestNeighbours
import Verif.Model.EvaluationRun
import Mathlib.Analysis.SpecialFunctions.Log.Base
/-!
# C33 — ranking metrics lie in [0,1]
-/

set_option linter.unusedSectionVars false

namespace Implicit

open Finset

variable {R : Type} [LinearOrder R] [Field R] [IsStrictOrderedRing R]

/-- All four values are between 0 and 1. -/
def Spec.InUnit (m : Metrics R) : Prop :=
  (0 ≤ m.precision ∧ m.precision ≤ 1) ∧ (0 ≤ m.map ∧ m.map ≤ 1) ∧ (0 ≤ m.ndcg ∧ m.ndcg ≤ 1) ∧
    (0 ≤ m.auc ∧ m.auc ≤ 1)

theorem mean_unit (s : Finset Nat) (v : Nat → R) (hs : s.Nonempty) (h : ∀ u ∈ s, 0 ≤ v u ∧ v u ≤ 1) :
    0 ≤ (∑ u ∈ s, v u) / (s.card : R) ∧ (∑ u ∈ s, v u) / (s.card : R) ≤ 1 := by
  have hc : 0 < (s.card : R) := by exact_mod_cast card_pos.mpr hs
  refine ⟨div_nonneg (sum_nonneg fun u hu => (h u hu).1) hc.le, ?_⟩
  rw [div_le_one hc, ← nsmul_one, ← sum_const]
  exact sum_le_sum fun u hu => (h u hu).2

theorem averagePrecision_unit {items K : Nat} (rel : Finset Int) {l : List Int}
    (hl : Spec.ValidRanking items K l) (hb : 0 < Spec.bestHits rel K) :
    0 ≤ (Spec.averagePrecision rel l K : R) ∧ (Spec.averagePrecision rel l K : R) ≤ 1 := by
  have hpos : (0 : R) < (Spec.bestHits rel K : R) := by exact_mod_cast hb
  have hprec : ∀ i, 0 ≤ (Spec.precisionAt rel l (i + 1) : R) ∧ (Spec.precisionAt rel l (i + 1) : R) ≤ 1 := by
    intro i
    unfold Spec.precisionAt
    have h1 : (0 : R) < ((i + 1 : Nat) : R) := by exact_mod_cast Nat.succ_pos i
    refine ⟨div_nonneg (Nat.cast_nonneg _) h1.le, ?_⟩
    rw [div_le_one h1]
    have : Spec.hits rel (l.take (i + 1)) ≤ i + 1 :=
      (hits_le_length _ _).trans (by rw [List.length_take]; exact min_le_left _ _)
    exact_mod_cast this
  unfold Spec.averagePrecision
  refine ⟨div_nonneg ?_ hpos.le, ?_⟩
  · unfold Spec.sumHits
    refine sum_nonneg fun i _ => ?_
    split
    · exact (hprec i).1
    · exact le_refl _
  · rw [div_le_one hpos]
    have key : ∀ l : List Int, (Spec.sumHits rel l fun _ => (1 : R)) = (Spec.hits rel l : R) := by
      intro l
      induction l using List.reverseRecOn with
      | nil => simp [Spec.sumHits, Spec.hits]
      | append_singleton l x ih =>
        rw [sumHits_snoc rel l x (fun _ => (1 : R)) (fun _ => (1 : R)) (fun _ _ => rfl), ih, hits_snoc]
        by_cases hx : x ∈ rel <;> simp [hx]
    calc (Spec.sumHits rel l fun i => (Spec.precisionAt rel l (i + 1) : R))
        ≤ Spec.sumHits rel l fun _ => (1 : R) := by
          unfold Spec.sumHits
          refine sum_le_sum fun i _ => ?_
          split
          · exact (hprec i).2
          · exact le_refl _
      _ = (Spec.hits rel l : R) := key l
      _ ≤ (Spec.bestHits rel K : R) := by exact_mod_cast hits_le_best rel hl

theorem auc_unit (rel all : Finset Int) (l : List Int) :
    0 ≤ (Spec.auc rel all l : R) ∧ (Spec.auc rel all l : R) ≤ 1 := by
  have hc : ∀ p n, 0 ≤ (Spec.pairCredit l p n : R) ∧ (Spec.pairCredit l p n : R) ≤ 1 := by
    intro p n
    unfold Spec.pairCredit
    split
    · exact ⟨zero_le_one, le_refl _⟩
    · split
      · exact ⟨le_refl _, zero_le_one⟩
      · constructor <;> norm_num
  unfold Spec.auc
  have hd : (0 : R) ≤ (rel.card : R) * ((all \ rel).card : R) :=
    mul_nonneg (Nat.cast_nonneg _) (Nat.cast_nonneg _)
  refine ⟨div_nonneg (sum_nonneg fun p _ => sum_nonneg fun n _ => (hc p n).1) hd, ?_⟩
  refine div_le_one_of_le₀ ?_ hd
  calc (∑ p ∈ rel, ∑ n ∈ all \ rel, (Spec.pairCredit l p n : R))
      ≤ ∑ p ∈ rel, ∑ n ∈ all \ rel, (1 : R) := sum_le_sum fun p _ => sum_le_sum fun n _ => (hc p n).2
    _ = (rel.card : R) * ((all \ rel).card : R) := by simp

/-- **C33** (partial: needs lists of `K` different existing items, see `C33_repeat_violated` and
`C33_pad_violated`).  Every model that answers so, for every discount that is positive and does not increase,
and every batch size. -/
theorem C33_unit_partial (recommend : List Nat → Except Err (List (List Int))) (B : Nat) (hB : 1 ≤ B)
    (K items : Nat) (hK : 1 ≤ K) (cg : Nat → R) (hcg : ∀ i, 0 < cg i)
    (hmono : ∀ i j, i ≤ j → cg j ≤ cg i) (test : SpRows R) (rank : Nat → List Int)
    (hne : (Spec.evaluated test).Nonempty)
    (htest : ∀ u ∈ Spec.evaluated test, Spec.ValidTest items (test.getD u []))
    (hrank : ∀ u ∈ Spec.evaluated test, Spec.ValidRanking items K (rank u))
    (hrec : ∀ us : List Nat, us ≠ [] → (∀ u ∈ us, u ∈ Spec.evaluated test) →
      recommend us = .ok (us.map rank)) :
    ∃ m, rankingMetrics recommend B K items cg test = .ok m ∧ Spec.InUnit m := by
  refine ⟨_, C34_metrics recommend B hB K items hK cg test rank hne htest hrank hrec, ?_⟩
  have hbest : ∀ u ∈ Spec.evaluated test, 0 < Spec.bestHits (Spec.relevant (test.getD u [])) K := by
    intro u hu
    have : 0 < (Spec.relevant (test.getD u [])).card := relevant_pos (mem_filter.mp hu).2
    unfold Spec.bestHits; omega
  refine ⟨?_, mean_unit _ _ hne fun u hu => averagePrecision_unit _ (hrank u hu) (hbest u hu),
    mean_unit _ _ hne fun u hu => ?_, mean_unit _ _ hne fun u _ => auc_unit _ _ _⟩
  · have h1 : (0 : R) ≤ ∑ u ∈ Spec.evaluated test, (Spec.bestHits (Spec.relevant (test.getD u [])) K : R) :=
      sum_nonneg fun _ _ => Nat.cast_nonneg _
    refine ⟨div_nonneg (sum_nonneg fun _ _ => Nat.cast_nonneg _) h1, div_le_one_of_le₀ ?_ h1⟩
    exact sum_le_sum fun u hu => by exact_mod_cast hits_le_best _ (hrank u hu)
  · have hi : 0 ≤ Spec.idealDcg cg (Spec.relevant (test.getD u [])) K := sum_nonneg fun i _ => (hcg i).le
    have hd : 0 ≤ Spec.dcg cg (Spec.relevant (test.getD u [])) (rank u) := by
      unfold Spec.dcg Spec.sumHits
      refine sum_nonneg fun i _ => ?_
      split
      · exact (hcg i).le
      · exact le_refl _
    exact ⟨div_nonneg hd hi, div_le_one_of_le₀
      (C34_ideal cg hmono (fun i => (hcg i).le) items K _ _ (hrank u hu)) hi⟩

/-- The discounts of the code, `1 / log2 (i + 2)`. -/
noncomputable def log2Discount (i : Nat) : ℝ := 1 / Real.logb 2 ((i : ℝ) + 2)

/-- The discounts of the code meet the hypotheses of `C33_unit_partial` and `C34_ideal`. -/
theorem C33_discount : (∀ i, 0 < log2Discount i) ∧ ∀ i j, i ≤ j → log2Discount j ≤ log2Discount i := by
  have hpos : ∀ i : Nat, 0 < Real.logb 2 ((i : ℝ) + 2) := fun i =>
    Real.logb_pos (by norm_num) (by have : (0 : ℝ) ≤ (i : ℝ) := Nat.cast_nonneg i; linarith)
  refine ⟨fun i => one_div_pos.mpr (hpos i), fun i j hij => ?_⟩
  unfold log2Discount
  apply one_div_le_one_div_of_le (hpos i)
  have h1 : (i : ℝ) ≤ (j : ℝ) := by exact_mod_cast hij
  have h0 : (0 : ℝ) ≤ (i : ℝ) := Nat.cast_nonneg i
  exact Real.logb_le_logb_of_le (by norm_num) (by linarith) (by linarith)

/-! ## Factor models -/

variable {f : Nat}

/-- What the evaluation of a factor model sees: for every evaluated user a list of `K` different items, the best unseen items first
(`good`), then, if there are too few, items of the user's training row (`rest`); the batches do not matter. -/
theorem mfEvaluate_ok (H : HeapImpl (R × Nat) pairLt) (neginf : R) (m : Factors f R)
    (g : List (Nat × R) → Except Err (Vec f R)) (train : SpRows R)
    (htrain : ∀ row ∈ train, ∀ e ∈ row, e.1 < m.item.length)
    (hlow : ∀ x ∈ m.user, ∀ y ∈ m.item, neginf < dot x y)
    (K : Nat) (hK : 1 ≤ K) (hKi : K ≤ m.item.length) (users : Finset Nat)
    (husers : ∀ u ∈ users, u < m.user.length ∧ u < train.length) :
    ∃ rank : Nat → List Int,
      (∀ us : List Nat, us ≠ [] → (∀ u ∈ us, u ∈ users) →
        mfEvaluate H neginf m (fun rows => rows.mapM g) train K us = .ok (us.map rank)) ∧
      ∀ u ∈ users, Spec.ValidRanking m.item.length K (rank u) ∧
        ∃ good rest : List (Nat × R), rank u = (good ++ rest).map (fun p => (p.1 : Int)) ∧
          Spec.IsRanking K (fun i => i < m.item.length ∧ ∀ e ∈ train.getD u [], e.1 ≠ i)
            (fun i => (m.item[i]?).map (dot (m.user.getD u 0))) good ∧
          ∀ p ∈ rest, ∃ e ∈ train.getD u [], e.1 = p.1 := by
  have hitems : m.item ≠ [] := by rintro h; rw [h] at hKi; simp at hKi; omega
  -- the answer for one user
  have hone : ∀ u ∈ users, ∃ row,
      recommend H neginf m (fun rows => rows.mapM g) (.one u) (some [train.getD u []]) K true none false none =
        .ok (.one row) ∧ Spec.ValidRanking m.item.length K (row.map fun p => (p.1 : Int)) ∧
        ∃ good rest : List (Nat × R), row = good ++ rest ∧
          Spec.IsRanking K (fun i => i < m.item.length ∧ ∀ e ∈ train.getD u [], e.1 ≠ i)
            (fun i => (m.item[i]?).map (dot (m.user.getD u 0))) good ∧
          ∀ p ∈ rest, ∃ e ∈ train.getD u [], e.1 = p.1 := by
    intro u hu
    obtain ⟨hu1, hu2⟩ := husers u hu
    have hx : m.user[u]? = some m.user[u] := List.getElem?_eq_getElem hu1
    have hx' : m.user.getD u 0 = m.user[u] := by rw [List.getD_eq_getElem?_getD, hx]; rfl
    have htr : train.getD u [] ∈ train := by
      rw [List.getD_eq_getElem?_getD, List.getElem?_eq_getElem hu2]; simp
    obtain ⟨good, rest, e, hr, hrest, -, hlen, hnd⟩ := C04_filter_answer H neginf m (fun rows => rows.mapM g) u
      m.user[u] hx hitems (train.getD u []) (htrain _ htr) none (by intro p hp; cases hp)
      (hlow _ (List.getElem_mem hu1)) K hK
    have hz : K - m.item.length = 0 := by omega
    rw [hz] at e
    simp only [List.replicate_zero, List.append_nil] at e
    have hr' : Spec.IsRanking K (fun i => i < m.item.length ∧ ∀ e ∈ train.getD u [], e.1 ≠ i)
        (fun i => (m.item[i]?).map (dot (m.user.getD u 0))) good := by
      rw [hx']
      have : (fun i => i < m.item.length ∧ (∀ e ∈ train.getD u [], e.1 ≠ i) ∧ (∀ p, (none : Option PyFilter) = some p → i ∉ p.ids)) =
          fun i => i < m.item.length ∧ ∀ e ∈ train.getD u [], e.1 ≠ i := by
        funext i; simp
      rwa [this] at hr
    have hrest' : ∀ p ∈ rest, ∃ e ∈ train.getD u [], e.1 = p.1 := by
      intro p hp
      rcases (hrest p hp).1 with h | ⟨F, hF, -⟩
      · exact h
      · cases hF
    refine ⟨_, e, ⟨by simp only [List.length_map]; omega, ?_, ?_⟩, good, rest, rfl, hr', hrest'⟩
    · rw [show ((good ++ rest).map fun p => (p.1 : Int)) =
        ((good ++ rest).map Prod.fst).map (fun i : Nat => (i : Int)) by rw [List.map_map]; rfl]
      exact hnd.map fun a b h => Int.ofNat.inj h
    · intro x hx
      obtain ⟨p, hp, rfl⟩ := List.mem_map.mp hx
      refine (mem_allItems _ _).mpr ⟨p.1, ?_, rfl⟩
      rcases List.mem_append.mp hp with h | h
      · exact (hr'.mem p h).1.1
      · obtain ⟨e, he, h1⟩ := hrest' p h
        rw [← h1]; exact htrain _ htr e he
  choose! row hrow hvalid hparts using hone
  refine ⟨fun u => (row u).map fun p => (p.1 : Int), ?_, fun u hu => ⟨hvalid u hu, ?_⟩⟩
  swap
  · obtain ⟨good, rest, h1, h2, h3⟩ := hparts u hu
    exact ⟨good, rest, by simp only [h1], h2, h3⟩
  intro us hus hmem
  have hgather : gather train us = .ok (us.map fun u => train.getD u []) := by
    refine (gather_ok _ _ _).mpr ⟨by simp, fun r u hru => ?_⟩
    have hu2 := (husers u (hmem u (List.mem_of_getElem? hru))).2
    refine ⟨train.getD u [], ?_, ?_⟩
    · rw [List.getD_eq_getElem?_getD, List.getElem?_eq_getElem hu2]; rfl
    · rw [List.getElem?_map, hru]; rfl
  have hrm : ∀ r u, us[r]? = some u →
      rowMatrix (some (us.map fun u => train.getD u [])) r = some [train.getD u []] := by
    intro r u hru
    simp [rowMatrix, List.getElem?_map, hru]
  obtain ⟨rows, hrows⟩ := C03_recommend_batch_complete H neginf m (fun rows => rows.mapM g) g (fun _ => rfl)
    us hus (us.map fun u => train.getD u []) (by simp) K true none false none (fun r u hru => by
      rw [hrm r u hru]
      exact ⟨row u, hrow u (hmem u (List.mem_of_getElem? hru))⟩)
  obtain ⟨rows', h1, hlen, h2⟩ := C03_recommend_batch H neginf m (fun rows => rows.mapM g) g (fun _ => rfl) us
    (some (us.map fun u => train.getD u [])) K true none false none _ hrows
  cases h1
  have hrowsEq : rows = us.map row := by
    refine List.ext_getElem? fun r => ?_
    rw [List.getElem?_map]
    cases hru : us[r]? with
    | none =>
      rw [List.getElem?_eq_none_iff] at hru
      simp [List.getElem?_eq_none_iff.mpr (by omega : rows.length ≤ r)]
    | some u =>
      obtain ⟨w, hw1, hw2⟩ := h2 r u hru
      rw [hrm r u hru, hrow u (hmem u (List.mem_of_getElem? hru))] at hw2
      cases hw2
      rw [hw1]; rfl
  unfold mfEvaluate
  rw [hgather]
  simp only [bind, Except.bind]
  rw [hrows, hrowsEq]
  simp only [pure, Except.pure, List.map_map]
  rfl

/-- **C33** for factor models (partial: `K` must not exceed the number of items).  Whatever the factors,
train and test matrices, all metrics of the CPU factor models lie in [0,1]; also when fewer than `K` items
are left after filtering the liked ones. -/
theorem C33_factor_model_partial (H : HeapImpl (R × Nat) pairLt) (neginf : R) (m : Factors f R)
    (g : List (Nat × R) → Except Err (Vec f R)) (train : SpRows R)
    (htrain : ∀ row ∈ train, ∀ e ∈ row, e.1 < m.item.length)
    (hlow : ∀ x ∈ m.user, ∀ y ∈ m.item, neginf < dot x y)
    (B : Nat) (hB : 1 ≤ B) (K : Nat) (hK : 1 ≤ K) (hKi : K ≤ m.item.length)
    (cg : Nat → R) (hcg : ∀ i, 0 < cg i) (hmono : ∀ i j, i ≤ j → cg j ≤ cg i) (test : SpRows R)
    (hne : (Spec.evaluated test).Nonempty)
    (htest : ∀ u ∈ Spec.evaluated test, Spec.ValidTest m.item.length (test.getD u []) ∧
      u < m.user.length ∧ u < train.length) :
    ∃ r, rankingMetrics (mfEvaluate H neginf m (fun rows => rows.mapM g) train K) B K m.item.length cg test =
      .ok r ∧ Spec.InUnit r := by
  obtain ⟨rank, hrec, hrank⟩ := mfEvaluate_ok H neginf m g train htrain hlow K hK hKi (Spec.evaluated test)
    fun u hu => (htest u hu).2
  exact C33_unit_partial _ B hB K m.item.length hK cg hcg hmono test rank hne (fun u hu => (htest u hu).1)
    (fun u hu => (hrank u hu).1) hrec

/-- **C33 is violated** for `K` larger than the number of items: the factor models then repeat item 0 (C02),
which counts as a second hit.  Precision is 2, MAP 5/3 and NDCG (with the discounts of the example) 4/3. -/
theorem C33_repeat_violated :
    rankingMetrics (mfEvaluate insertionHeap (-1000) (⟨[![1]], [![2], ![1]]⟩ : Factors 1 Rat)
      noRecalc [[]] 3) metricsBatchSize 3 2 exampleCg [[(0, 1)]] = .ok ⟨2, 5 / 3, 4 / 3, 1⟩ := by
  decide +kernel

/-- `ids, _ = model.recommend(...)` for an item-item model. -/
def knnEvaluate (H : HeapImpl (R × Nat) pairLt) (lowest lowest32 : R) (st : KnnState R) (train : SpRows R)
    (K : Nat) (us : List Nat) : Except Err (List (List Int)) := do
  let rows ← gather train us
  match ← (knnRecommend H lowest lowest32 st (.many us) true rows K true none none).1 with
  | .one row => pure [row.map Prod.fst]
  | .many out => pure (out.map fun row => row.map Prod.fst)

/-- **C33 is violated** by item-item models also for `K` up to the number of items: absent results are
padded with id -1, every one of which counts as a recommended irrelevant item.  With three items, two of them
relevant, and no similarities at all, AUC is -1. -/
theorem C33_pad_violated :
    rankingMetrics (knnEvaluate insertionHeap (-1000) (-1000)
      (KnnState.ofSimilarity ([[], [], []] : SpRows Rat)) [[]] 3) metricsBatchSize 3 3 exampleCg
      [[(0, 1), (1, 1)]] = .ok ⟨0, 0, 0, -1⟩ := by
  decide +kernel

/-- The hypotheses of `C33_factor_model_partial` are met by a model with two items, `K = 2`, whose user
already likes one of them. -/
example :
    let m : Factors 1 Rat := ⟨[![1]], [![2], ![1]]⟩
    rankingMetrics (mfEvaluate insertionHeap (-1000) m noRecalc [[(0, 1)]] 2) metricsBatchSize 2 2 exampleCg
      [[(1, 1)]] = .ok ⟨1, 1, 1, 1⟩ ∧
    (∀ x ∈ m.user, ∀ y ∈ m.item, (-1000 : Rat) < dot x y) := by
  refine ⟨by decide +kernel, ?_⟩
  intro x hx y hy
  simp only [List.mem_singleton, List.mem_cons, List.not_mem_nil, or_false] at hx hy
  subst hx
  rcases hy with rfl | rfl <;> (unfold dot; simp; norm_num)

end Implicit
