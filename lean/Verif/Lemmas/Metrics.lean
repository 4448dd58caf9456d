import Verif.Model.Metrics
import Verif.Spec.Metrics
import Mathlib.Algebra.BigOperators.Ring.Finset
import Mathlib.Algebra.Order.BigOperators.Group.Finset
import Mathlib.Tactic.Ring
import Mathlib.Tactic.Linarith
import Mathlib.Tactic.FieldSimp
/-!
# Facts about the metric loops
-/

set_option linter.unusedSectionVars false

namespace Implicit

open Finset

variable {R : Type} [LinearOrder R] [Field R] [IsStrictOrderedRing R]

theorem cgSum_eq (cg : Nat → R) : ∀ n, cgSum cg n = ∑ i ∈ range n, cg i
  | 0 => by simp [cgSum]
  | n + 1 => by rw [cgSum, cgSum_eq cg n, sum_range_succ]

theorem hits_snoc (rel : Finset Int) (l : List Int) (x : Int) :
    Spec.hits rel (l ++ [x]) = Spec.hits rel l + if x ∈ rel then 1 else 0 := by
  unfold Spec.hits
  rw [List.countP_append, List.countP_singleton]
  by_cases h : x ∈ rel <;> simp [h]

theorem hits_le_length (rel : Finset Int) (l : List Int) : Spec.hits rel l ≤ l.length :=
  List.countP_le_length

theorem sumHits_snoc (rel : Finset Int) (l : List Int) (x : Int) (v v' : Nat → R)
    (h : ∀ i < l.length, v' i = v i) :
    Spec.sumHits rel (l ++ [x]) v' =
      Spec.sumHits rel l v + if x ∈ rel then v' l.length else 0 := by
  unfold Spec.sumHits
  rw [List.length_append, List.length_singleton, sum_range_succ]
  congr 1
  · refine sum_congr rfl fun i hi => ?_
    have hi := mem_range.mp hi
    rw [h i hi, List.getD_eq_getElem?_getD, List.getD_eq_getElem?_getD, List.getElem?_append_left hi]
  · rw [List.getD_eq_getElem?_getD, List.getElem?_append_right (le_refl _)]
    simp

theorem precisionAt_snoc (rel : Finset Int) (l : List Int) (x : Int) (i : Nat) (hi : i < l.length) :
    (Spec.precisionAt rel (l ++ [x]) (i + 1) : R) = Spec.precisionAt rel l (i + 1) := by
  unfold Spec.precisionAt
  rw [List.take_append_of_le_length (by omega)]

/-! ## Hits -/

theorem hits_eq_card (rel : Finset Int) {l : List Int} (hl : l.Nodup) :
    Spec.hits rel l = (rel.filter (· ∈ l)).card := by
  unfold Spec.hits
  rw [List.countP_eq_length_filter]
  rw [← List.toFinset_card_of_nodup (hl.filter _)]
  congr 1
  ext x
  simp [and_comm]

theorem hits_le_card (rel : Finset Int) {l : List Int} (hl : l.Nodup) : Spec.hits rel l ≤ rel.card := by
  rw [hits_eq_card rel hl]
  exact card_filter_le _ _

theorem misses_eq_card (rel all : Finset Int) {l : List Int} (hl : l.Nodup) (hall : ∀ x ∈ l, x ∈ all) :
    l.length - Spec.hits rel l = ((all \ rel).filter (· ∈ l)).card := by
  unfold Spec.hits
  have h1 : l.length = l.countP (· ∈ rel) + l.countP (fun x => !decide (x ∈ rel)) :=
    (List.length_eq_countP_add_countP (l := l) (fun x => decide (x ∈ rel))).trans (by simp)
  have h2 : l.countP (fun x => !decide (x ∈ rel)) = ((all \ rel).filter (· ∈ l)).card := by
    rw [List.countP_eq_length_filter, ← List.toFinset_card_of_nodup (hl.filter _)]
    congr 1
    ext x
    simp only [List.mem_toFinset, List.mem_filter, Bool.not_eq_true', decide_eq_false_iff_not, mem_filter,
      mem_sdiff]
    constructor
    · rintro ⟨a, b⟩; exact ⟨⟨hall x a, b⟩, a⟩
    · rintro ⟨⟨-, b⟩, c⟩; exact ⟨c, b⟩
  omega

/-! ## Pair credit -/

theorem pairCredit_snoc (l : List Int) (x p n : Int) (hx : x ∉ l) (hpn : p ≠ n) :
    (Spec.pairCredit (l ++ [x]) p n : R) = Spec.pairCredit l p n +
      (if p = x ∧ n ∉ l then 1 / 2 else 0) - (if n = x ∧ p ∉ l then 1 / 2 else 0) := by
  have hin : ∀ a, a ∈ l → (l ++ [x]).idxOf a = l.idxOf a ∧ l.idxOf a < l.length := fun a ha =>
    ⟨List.idxOf_append_of_mem ha, List.idxOf_lt_length_iff.mpr ha⟩
  have hout : ∀ a, a ∉ l → a ≠ x → (l ++ [x]).idxOf a = l.length + 1 ∧ l.idxOf a = l.length := by
    intro a ha hax
    refine ⟨?_, List.idxOf_eq_length_iff.mpr ha⟩
    rw [List.idxOf_append_of_notMem ha]
    rw [List.idxOf_cons_ne _ (Ne.symm hax)]
    simp
  have hxx : (l ++ [x]).idxOf x = l.length ∧ l.idxOf x = l.length := by
    refine ⟨?_, List.idxOf_eq_length_iff.mpr hx⟩
    rw [List.idxOf_append_of_notMem hx]; simp
  unfold Spec.pairCredit
  by_cases hp : p ∈ l
  · obtain ⟨p1, p2⟩ := hin p hp
    have hpx : p ≠ x := fun h => hx (h ▸ hp)
    by_cases hn : n ∈ l
    · obtain ⟨n1, n2⟩ := hin n hn
      simp [p1, n1, hp, hn]
    · by_cases hnx : n = x
      · subst hnx
        simp [p1, hxx.1, hxx.2, p2, hp, hpx]
      · obtain ⟨n1, n2⟩ := hout n hn hnx
        simp [p1, n1, n2, p2, hnx, hpx, Nat.lt_succ_of_lt p2]
  · by_cases hpx : p = x
    · subst hpx
      by_cases hn : n ∈ l
      · obtain ⟨n1, n2⟩ := hin n hn
        have hnp : n ≠ p := fun h => hpn h.symm
        simp [n1, hxx.1, hxx.2, n2, hn, hnp]
      · have hnp : n ≠ p := fun h => hpn h.symm
        obtain ⟨n1, n2⟩ := hout n hn hnp
        simp [n1, n2, hxx.1, hxx.2, hn, hnp]
        norm_num
    · obtain ⟨p1, p2⟩ := hout p hp hpx
      by_cases hn : n ∈ l
      · obtain ⟨n1, n2⟩ := hin n hn
        have hnx : n ≠ x := fun h => hx (h ▸ hn)
        have e1 : ¬ l.length + 1 < l.idxOf n := by omega
        have e2 : ¬ l.length < l.idxOf n := by omega
        simp [p1, p2, n1, n2, hpx, hnx, Nat.lt_succ_of_lt n2, e1, e2]
      · by_cases hnx : n = x
        · subst hnx
          simp [p1, p2, hxx.1, hxx.2, hp, hpx]
        · obtain ⟨n1, n2⟩ := hout n hn hnx
          simp [p1, p2, n1, n2, hpx, hnx]

/-- Sum of the credits of all pairs. -/
def creditSum (rel all : Finset Int) (l : List Int) : R :=
  ∑ p ∈ rel, ∑ n ∈ all \ rel, Spec.pairCredit l p n

theorem creditSum_nil (rel all : Finset Int) :
    (creditSum rel all [] : R) = (rel.card : R) / 2 * ((all \ rel).card : R) := by
  unfold creditSum
  simp [Spec.pairCredit]
  ring

theorem creditSum_snoc (rel all : Finset Int) (l : List Int) (x : Int) (hx : x ∉ l) (hxa : x ∈ all) :
    (creditSum rel all (l ++ [x]) : R) = creditSum rel all l +
      if x ∈ rel then (((all \ rel).filter (· ∉ l)).card : R) / 2
      else - (((rel.filter (· ∉ l)).card : R) / 2) := by
  have hne : ∀ p ∈ rel, ∀ n ∈ all \ rel, p ≠ n := by
    rintro p hp n hn rfl
    exact (mem_sdiff.mp hn).2 hp
  have step : (creditSum rel all (l ++ [x]) : R) = creditSum rel all l +
      (∑ p ∈ rel, ∑ n ∈ all \ rel, if p = x ∧ n ∉ l then (1 / 2 : R) else 0) -
      (∑ p ∈ rel, ∑ n ∈ all \ rel, if n = x ∧ p ∉ l then (1 / 2 : R) else 0) := by
    unfold creditSum
    rw [← sum_add_distrib, ← sum_sub_distrib]
    refine sum_congr rfl fun p hp => ?_
    rw [← sum_add_distrib, ← sum_sub_distrib]
    exact sum_congr rfl fun n hn => pairCredit_snoc l x p n hx (hne p hp n hn)
  rw [step]
  by_cases hr : x ∈ rel
  · rw [if_pos hr]
    have h2 : (∑ p ∈ rel, ∑ n ∈ all \ rel, if n = x ∧ p ∉ l then (1 / 2 : R) else 0) = 0 := by
      refine sum_eq_zero fun p _ => sum_eq_zero fun n hn => if_neg ?_
      rintro ⟨rfl, -⟩
      exact (mem_sdiff.mp hn).2 hr
    have h1 : (∑ p ∈ rel, ∑ n ∈ all \ rel, if p = x ∧ n ∉ l then (1 / 2 : R) else 0) =
        (((all \ rel).filter (· ∉ l)).card : R) / 2 := by
      rw [sum_eq_single x]
      · simp only [true_and]
        rw [← sum_filter, sum_const, nsmul_eq_mul]
        ring
      · intro p _ hpx
        exact sum_eq_zero fun n _ => if_neg fun h => hpx h.1
      · intro h; exact absurd hr h
    rw [h1, h2, sub_zero]
  · rw [if_neg hr]
    have h1 : (∑ p ∈ rel, ∑ n ∈ all \ rel, if p = x ∧ n ∉ l then (1 / 2 : R) else 0) = 0 := by
      refine sum_eq_zero fun p hp => sum_eq_zero fun n _ => if_neg ?_
      rintro ⟨rfl, -⟩
      exact hr hp
    have h2 : (∑ p ∈ rel, ∑ n ∈ all \ rel, if n = x ∧ p ∉ l then (1 / 2 : R) else 0) =
        ((rel.filter (· ∉ l)).card : R) / 2 := by
      rw [sum_comm, sum_eq_single x]
      · simp only [true_and]
        rw [← sum_filter, sum_const, nsmul_eq_mul]
        ring
      · intro n _ hnx
        exact sum_eq_zero fun p _ => if_neg fun h => hnx h.1
      · intro h; exact absurd (mem_sdiff.mpr ⟨hxa, hr⟩) h
    rw [h1, h2]
    ring

/-! ## The loop over the recommended ids -/

theorem card_filter_not (s : Finset Int) (l : List Int) :
    ((s.filter (· ∉ l)).card : R) = (s.card : R) - ((s.filter (· ∈ l)).card : R) := by
  have := card_filter_add_card_filter_not (s := s) (fun x => x ∈ l)
  rw [← this]; push_cast; ring

/-- State of the accumulators after a prefix of the recommended ids. -/
theorem metrics_scan (likes : List Nat) (cg : Nat → R) (idcg : R) (rel : Finset Int)
    (hrel : ∀ x : Int, (likes.any fun c => (c : Int) == x) = true ↔ x ∈ rel) (s : MetricSums R)
    (l : List Int) :
    ∃ a, l.zipIdx.foldl (metricsStep likes cg idcg) (s, ⟨0, 0, 0, 0⟩) =
      ({ s with
          relevant := s.relevant + (Spec.hits rel l : R)
          ndcg := s.ndcg + Spec.dcg cg rel l / idcg },
       ⟨(Spec.hits rel l : R), (l.length : R) - (Spec.hits rel l : R),
        Spec.sumHits rel l fun i => Spec.precisionAt rel l (i + 1), a⟩) ∧
      ∀ all, l.Nodup → (∀ x ∈ l, x ∈ all) →
        a + ((Spec.hits rel l : R) + (rel.card : R)) / 2 *
          (((all \ rel).card : R) - ((l.length : R) - (Spec.hits rel l : R))) =
        creditSum rel all l := by
  induction l using List.reverseRecOn with
  | nil =>
    refine ⟨0, ?_, fun all _ _ => ?_⟩
    · simp [Spec.hits, Spec.dcg, Spec.sumHits]
    · rw [creditSum_nil]; simp [Spec.hits]
  | append_singleton l x ih =>
    obtain ⟨a, h1, h2⟩ := ih
    rw [List.zipIdx_append, List.foldl_append, h1]
    simp only [List.zipIdx_cons, List.zipIdx_nil, List.foldl_cons, List.foldl_nil, Nat.zero_add]
    unfold metricsStep
    have hdcg : Spec.dcg cg rel (l ++ [x]) = Spec.dcg cg rel l + if x ∈ rel then cg l.length else 0 :=
      sumHits_snoc rel l x cg cg fun _ _ => rfl
    have hap : (Spec.sumHits rel (l ++ [x]) fun i => Spec.precisionAt rel (l ++ [x]) (i + 1) : R) =
        (Spec.sumHits rel l fun i => Spec.precisionAt rel l (i + 1)) +
          if x ∈ rel then Spec.precisionAt rel (l ++ [x]) (l.length + 1) else 0 :=
      sumHits_snoc rel l x _ _ fun i hi => precisionAt_snoc rel l x i hi
    have hmis : ∀ all : Finset Int, l.Nodup → (∀ y ∈ l, y ∈ all) →
        (l.length : R) - (Spec.hits rel l : R) = (((all \ rel).filter (· ∈ l)).card : R) := by
      intro all hnd hall
      rw [← misses_eq_card rel all hnd hall, Nat.cast_sub (hits_le_length rel l)]
    by_cases hx : x ∈ rel
    · rw [if_pos ((hrel x).mpr hx)]
      refine ⟨a, ?_, fun all hnd hall => ?_⟩
      · simp only [hits_snoc, if_pos hx, hdcg, hap, List.length_append, List.length_singleton]
        congr 1
        · congr 1
          · push_cast; ring
          · ring
        · congr 1
          · push_cast; ring
          · push_cast; ring
          · unfold Spec.precisionAt
            rw [List.take_of_length_le (by simp), hits_snoc, if_pos hx]
            push_cast
            ring
      · have hnd' := List.nodup_append.mp hnd
        have hxl : x ∉ l := fun h => hnd'.2.2 x h x (by simp) rfl
        have hall' : ∀ y ∈ l, y ∈ all := fun y hy => hall y (by simp [hy])
        rw [creditSum_snoc rel all l x hxl (hall x (by simp)), if_pos hx, ← h2 all hnd'.1 hall',
          card_filter_not, ← hmis all hnd'.1 hall', hits_snoc, if_pos hx]
        simp only [List.length_append, List.length_singleton]
        push_cast
        ring
    · rw [if_neg (fun h => hx ((hrel x).mp h))]
      refine ⟨a + (Spec.hits rel l : R), ?_, fun all hnd hall => ?_⟩
      · simp only [hits_snoc, if_neg hx, hdcg, hap, List.length_append, List.length_singleton, add_zero]
        congr 2
        push_cast
        ring
      · have hnd' := List.nodup_append.mp hnd
        have hxl : x ∉ l := fun h => hnd'.2.2 x h x (by simp) rfl
        have hall' : ∀ y ∈ l, y ∈ all := fun y hy => hall y (by simp [hy])
        rw [creditSum_snoc rel all l x hxl (hall x (by simp)), if_neg hx, ← h2 all hnd'.1 hall',
          card_filter_not, ← hits_eq_card rel hnd'.1, hits_snoc, if_neg hx]
        simp only [List.length_append, List.length_singleton]
        push_cast
        ring

end Implicit
