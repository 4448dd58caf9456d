import Verif.Spec.Better
import Verif.Props.C33
import Verif.Props.C34
/-!
# C87 — Better recommendations get better metrics
-/

set_option linter.unusedSectionVars false

namespace Implicit

open Finset

variable {R : Type} [LinearOrder R] [Field R] [IsStrictOrderedRing R]

/-! ## Sums by parts -/

/-- Increments of a nonnegative sequence, weighted by falling weights. -/
theorem parts_ge (D v : Nat → R) (h0 : D 0 = 0) (K : Nat) (hD : ∀ i, i ≤ K → 0 ≤ D i)
    (hv : ∀ i, v (i + 1) ≤ v i) : D K * v K ≤ ∑ i ∈ range K, (D (i + 1) - D i) * v i := by
  induction K with
  | zero => simp [h0]
  | succ K ih =>
    rw [sum_range_succ]
    have h1 := ih fun i hi => hD i (by omega)
    have h2 := mul_le_mul_of_nonneg_left (hv K) (hD (K + 1) (le_refl _))
    linarith

theorem parts_gt (D v : Nat → R) (h0 : D 0 = 0) (K : Nat) (hD : ∀ i, i ≤ K → 0 ≤ D i)
    (hv : ∀ i, v (i + 1) < v i) (j : Nat) (hj : j ≤ K) (hpos : 0 < D j) :
    D K * v K < ∑ i ∈ range K, (D (i + 1) - D i) * v i := by
  induction K with
  | zero =>
    have : j = 0 := by omega
    rw [this, h0] at hpos
    exact absurd hpos (lt_irrefl _)
  | succ K ih =>
    rw [sum_range_succ]
    have h2 := mul_le_mul_of_nonneg_left (hv K).le (hD (K + 1) (le_refl _))
    rcases Nat.lt_or_ge K j with h | h
    · have hjK : j = K + 1 := by omega
      subst hjK
      have h1 := parts_ge D v h0 K (fun i hi => hD i (by omega)) fun i => (hv i).le
      have h3 := mul_lt_mul_of_pos_left (hv K) hpos
      linarith
    · have h1 := ih (fun i hi => hD i (by omega)) h
      linarith

/-! ## The metrics of one list, by its beginnings -/

theorem hits_take_succ (rel : Finset Int) (l : List Int) (i : Nat) (hi : i < l.length) :
    Spec.hits rel (l.take (i + 1)) = Spec.hits rel (l.take i) + if l.getD i 0 ∈ rel then 1 else 0 := by
  rw [List.take_succ_eq_append_getElem hi, hits_snoc, List.getD_eq_getElem?_getD, List.getElem?_eq_getElem hi]
  rfl

theorem sumHits_parts (rel : Finset Int) (l : List Int) (v : Nat → R) :
    Spec.sumHits rel l v = ∑ i ∈ range l.length,
      ((Spec.hits rel (l.take (i + 1)) : R) - (Spec.hits rel (l.take i) : R)) * v i := by
  unfold Spec.sumHits
  refine sum_congr rfl fun i hi => ?_
  rw [hits_take_succ rel l i (mem_range.mp hi)]
  split <;> simp

/-- `1 + 2 + ... + h`. -/
def triangle (h : Nat) : R := (h : R) * ((h : R) + 1) / 2

theorem triangle_mono {a b : Nat} (h : a ≤ b) : (triangle a : R) ≤ triangle b := by
  unfold triangle
  have h1 : (a : R) ≤ (b : R) := by exact_mod_cast h
  have h2 : (0 : R) ≤ (a : R) := Nat.cast_nonneg a
  have := mul_le_mul h1 (by linarith : (a : R) + 1 ≤ (b : R) + 1) (by linarith) (by linarith)
  linarith

theorem triangle_lt {a b : Nat} (h : a < b) : (triangle a : R) < triangle b := by
  unfold triangle
  have h1 : (a : R) < (b : R) := by exact_mod_cast h
  have h2 : (0 : R) ≤ (a : R) := Nat.cast_nonneg a
  have := mul_lt_mul h1 (by linarith : (a : R) + 1 ≤ (b : R) + 1) (by linarith) (by linarith)
  linarith

theorem sumPrecision_parts (rel : Finset Int) (l : List Int) :
    (Spec.sumHits rel l fun i => Spec.precisionAt rel l (i + 1) : R) = ∑ i ∈ range l.length,
      ((triangle (Spec.hits rel (l.take (i + 1))) : R) - triangle (Spec.hits rel (l.take i))) *
        (1 / ((i : R) + 1)) := by
  unfold Spec.sumHits
  refine sum_congr rfl fun i hi => ?_
  unfold Spec.precisionAt triangle
  have hpt := hits_take_succ rel l i (mem_range.mp hi)
  split
  · rename_i hx
    rw [if_pos hx] at hpt
    beta_reduce
    rw [hpt]
    push_cast
    ring
  · rename_i hx
    rw [if_neg hx, Nat.add_zero] at hpt
    rw [hpt]
    simp

/-- The correctly ordered pairs, by the hits of the beginnings. -/
theorem creditSum_parts (rel all : Finset Int) (l : List Int) (hnd : l.Nodup) (hall : ∀ x ∈ l, x ∈ all) :
    (creditSum rel all l : R) = (∑ i ∈ range l.length, (Spec.hits rel (l.take i) : R)) -
      (Spec.hits rel l : R) * ((Spec.hits rel l : R) - 1) / 2 +
      ((Spec.hits rel l : R) + (rel.card : R)) *
        (((all \ rel).card : R) - (l.length : R) + (Spec.hits rel l : R)) / 2 := by
  induction l using List.reverseRecOn with
  | nil =>
    rw [creditSum_nil]
    simp [Spec.hits]
    ring
  | append_singleton l x ih =>
    have hnd' := List.nodup_append.mp hnd
    have hxl : x ∉ l := fun h => hnd'.2.2 x h x (by simp) rfl
    have hall' : ∀ y ∈ l, y ∈ all := fun y hy => hall y (by simp [hy])
    have hmis : (l.length : R) - (Spec.hits rel l : R) = (((all \ rel).filter (· ∈ l)).card : R) := by
      rw [← misses_eq_card rel all hnd'.1 hall', Nat.cast_sub (hits_le_length rel l)]
    have hsum : (∑ i ∈ range (l ++ [x]).length, (Spec.hits rel ((l ++ [x]).take i) : R)) =
        (∑ i ∈ range l.length, (Spec.hits rel (l.take i) : R)) + (Spec.hits rel l : R) := by
      rw [List.length_append, List.length_singleton, sum_range_succ]
      congr 1
      · refine sum_congr rfl fun i hi => ?_
        rw [List.take_append_of_le_length (mem_range.mp hi).le]
      · rw [List.take_append_of_le_length (le_refl _), List.take_length]
    rw [creditSum_snoc rel all l x hxl (hall x (by simp)), ih hnd'.1 hall', hsum, hits_snoc,
      card_filter_not, card_filter_not, ← hmis, ← hits_eq_card rel hnd'.1]
    simp only [List.length_append, List.length_singleton]
    split
    · push_cast
      ring
    · push_cast
      ring

/-! ## One user -/

/-- What a better list does to the four numbers of a user. -/
structure Improves (strict : Prop) (K : Nat) (cg : Nat → R) (rel all : Finset Int) (l l' : List Int) : Prop where
  hits : Spec.hits rel l' ≤ Spec.hits rel l
  map : (Spec.averagePrecision rel l' K : R) ≤ Spec.averagePrecision rel l K
  ndcg : Spec.ndcg cg rel l' K ≤ Spec.ndcg cg rel l K
  auc : (Spec.auc rel all l' : R) ≤ Spec.auc rel all l
  mapStrict : strict → (Spec.averagePrecision rel l' K : R) < Spec.averagePrecision rel l K
  ndcgStrict : strict → Spec.ndcg cg rel l' K < Spec.ndcg cg rel l K
  aucStrict : strict → (Spec.auc rel all l' : R) < Spec.auc rel all l

theorem improves (K items : Nat) (hK : 1 ≤ K) (cg : Nat → R) (hcg : ∀ i, 0 < cg i)
    (hanti : ∀ i, cg (i + 1) < cg i) (rel : Finset Int) (hrel : rel ⊆ Spec.allItems items)
    (hpos : 0 < rel.card) (hproper : rel.card < items) (l l' : List Int)
    (hl : Spec.ValidRanking items K l) (hl' : Spec.ValidRanking items K l')
    (h : Spec.AtLeastAsGood rel K l l') :
    Improves (∃ i, i ≤ K ∧ Spec.hits rel (l'.take i) < Spec.hits rel (l.take i)) K cg rel
      (Spec.allItems items) l l' := by
  have hbest : 0 < Spec.bestHits rel K := by unfold Spec.bestHits; omega
  have hb : (0 : R) < (Spec.bestHits rel K : R) := by exact_mod_cast hbest
  have hfull : ∀ m : List Int, Spec.ValidRanking items K m → m.take K = m := fun m hm =>
    List.take_of_length_le (by rw [hm.length])
  have hhits : Spec.hits rel l' ≤ Spec.hits rel l := by
    have := h K (le_refl _)
    rwa [hfull l hl, hfull l' hl'] at this
  -- average precision
  set T : Nat → R := fun i => triangle (Spec.hits rel (l.take i)) - triangle (Spec.hits rel (l'.take i))
  have hT0 : T 0 = 0 := by simp [T]
  have hTpos : ∀ i, i ≤ K → 0 ≤ T i := fun i hi => sub_nonneg.mpr (triangle_mono (h i hi))
  have hinv : ∀ i : Nat, (1 : R) / (((i + 1 : Nat) : R) + 1) < 1 / ((i : R) + 1) := by
    intro i
    have : (0 : R) ≤ (i : R) := Nat.cast_nonneg i
    push_cast
    exact one_div_lt_one_div_of_lt (by linarith) (by linarith)
  have hinv0 : (0 : R) < 1 / ((K : R) + 1) := by
    have : (0 : R) ≤ (K : R) := Nat.cast_nonneg K
    positivity
  have hapdiff : (Spec.sumHits rel l fun i => Spec.precisionAt rel l (i + 1) : R) -
      (Spec.sumHits rel l' fun i => Spec.precisionAt rel l' (i + 1) : R) =
      ∑ i ∈ range K, (T (i + 1) - T i) * (1 / ((i : R) + 1)) := by
    rw [sumPrecision_parts, sumPrecision_parts, hl.length, hl'.length, ← sum_sub_distrib]
    exact sum_congr rfl fun i _ => by simp only [T]; ring
  -- discounted gain
  set D : Nat → R := fun i => (Spec.hits rel (l.take i) : R) - (Spec.hits rel (l'.take i) : R)
  have hD0 : D 0 = 0 := by simp [D]
  have hDpos : ∀ i, i ≤ K → 0 ≤ D i := fun i hi => sub_nonneg.mpr (by exact_mod_cast h i hi)
  have hdcgdiff : Spec.dcg cg rel l - Spec.dcg cg rel l' = ∑ i ∈ range K, (D (i + 1) - D i) * cg i := by
    unfold Spec.dcg
    rw [sumHits_parts, sumHits_parts, hl.length, hl'.length, ← sum_sub_distrib]
    exact sum_congr rfl fun i _ => by simp only [D]; ring
  have hideal : 0 < Spec.idealDcg cg rel K := by
    unfold Spec.idealDcg
    exact sum_pos (fun i _ => hcg i) ⟨0, mem_range.mpr hbest⟩
  -- pairs
  have hneg : ((Spec.allItems items \ rel).card : R) = (items : R) - (rel.card : R) := by
    rw [card_sdiff_of_subset hrel, allItems_card, Nat.cast_sub hproper.le]
  have hnegpos : (0 : R) < ((Spec.allItems items \ rel).card : R) := by
    rw [hneg]
    have : (rel.card : R) < (items : R) := by exact_mod_cast hproper
    linarith
  have hrelpos : (0 : R) < (rel.card : R) := by exact_mod_cast hpos
  have hKi : (K : R) ≤ (items : R) := by
    have hc : l.toFinset.card ≤ (Spec.allItems items).card :=
      card_le_card fun x hx => hl.existing x (List.mem_toFinset.mp hx)
    rw [List.toFinset_card_of_nodup hl.distinct, hl.length, allItems_card] at hc
    exact_mod_cast hc
  have hcredit : (creditSum rel (Spec.allItems items) l : R) - creditSum rel (Spec.allItems items) l' =
      (∑ i ∈ range K, D i) + D K * (1 + ((items : R) - (K : R))) / 2 := by
    rw [creditSum_parts rel _ l hl.distinct hl.existing, creditSum_parts rel _ l' hl'.distinct hl'.existing,
      hl.length, hl'.length, hneg]
    simp only [D]
    rw [sum_sub_distrib, hfull l hl, hfull l' hl']
    ring
  have hsumD : 0 ≤ ∑ i ∈ range K, D i := sum_nonneg fun i hi => hDpos i (mem_range.mp hi).le
  have hDK := hDpos K (le_refl _)
  have hlast : 0 ≤ D K * (1 + ((items : R) - (K : R))) / 2 :=
    div_nonneg (mul_nonneg hDK (by linarith)) (by norm_num)
  have hauc : ∀ m, (Spec.auc rel (Spec.allItems items) m : R) =
      creditSum rel (Spec.allItems items) m / ((rel.card : R) * ((Spec.allItems items \ rel).card : R)) :=
    fun _ => rfl
  have hden : (0 : R) < (rel.card : R) * ((Spec.allItems items \ rel).card : R) := mul_pos hrelpos hnegpos
  refine ⟨hhits, ?_, ?_, ?_, ?_, ?_, ?_⟩
  · unfold Spec.averagePrecision
    refine div_le_div_of_nonneg_right ?_ hb.le
    have h1 := parts_ge T (fun i => 1 / ((i : R) + 1)) hT0 K hTpos fun i => (hinv i).le
    have h2 := mul_nonneg (hTpos K (le_refl _)) hinv0.le
    linarith
  · unfold Spec.ndcg
    refine div_le_div_of_nonneg_right ?_ hideal.le
    have h1 := parts_ge D cg hD0 K hDpos fun i => (hanti i).le
    have h2 := mul_nonneg hDK (hcg K).le
    linarith
  · rw [hauc, hauc]
    refine div_le_div_of_nonneg_right ?_ hden.le
    linarith
  · rintro ⟨j, hj, hlt⟩
    unfold Spec.averagePrecision
    refine div_lt_div_of_pos_right ?_ hb
    have h1 := parts_gt T (fun i => 1 / ((i : R) + 1)) hT0 K hTpos hinv j hj
      (sub_pos.mpr (triangle_lt hlt))
    have h2 := mul_nonneg (hTpos K (le_refl _)) hinv0.le
    linarith
  · rintro ⟨j, hj, hlt⟩
    unfold Spec.ndcg
    refine div_lt_div_of_pos_right ?_ hideal
    have h1 := parts_gt D cg hD0 K hDpos hanti j hj (sub_pos.mpr (by exact_mod_cast hlt))
    have h2 := mul_nonneg hDK (hcg K).le
    linarith
  · rintro ⟨j, hj, hlt⟩
    rw [hauc, hauc]
    refine div_lt_div_of_pos_right ?_ hden
    have hDj : 0 < D j := sub_pos.mpr (by exact_mod_cast hlt)
    rcases Nat.lt_or_ge j K with hjK | hjK
    · have : 0 < ∑ i ∈ range K, D i :=
        sum_pos' (fun i hi => hDpos i (mem_range.mp hi).le) ⟨j, mem_range.mpr hjK, hDj⟩
      linarith
    · have hjK : j = K := by omega
      subst hjK
      have : 0 < D j * (1 + ((items : R) - (j : R))) / 2 :=
        div_pos (mul_pos hDj (by linarith)) (by norm_num)
      linarith

/-! ## Models -/

/-- **C87**.  Two models are evaluated on the same data.  If the list of the first has, for every evaluated
user and every number of places, at least as many relevant items as that of the second, none of its four
metrics is lower.  If it is better for some user, its MAP, NDCG and AUC are higher; if it has more relevant
items for some user, so is its precision. -/
theorem C87_better (recommend recommend' : List Nat → Except Err (List (List Int))) (B B' : Nat)
    (hB : 1 ≤ B) (hB' : 1 ≤ B') (K items : Nat) (hK : 1 ≤ K) (cg : Nat → R) (hcg : ∀ i, 0 < cg i)
    (hanti : ∀ i, cg (i + 1) < cg i) (test : SpRows R) (rank rank' : Nat → List Int)
    (hne : (Spec.evaluated test).Nonempty)
    (htest : ∀ u ∈ Spec.evaluated test, Spec.ValidTest items (test.getD u []))
    (hrank : ∀ u ∈ Spec.evaluated test, Spec.ValidRanking items K (rank u))
    (hrank' : ∀ u ∈ Spec.evaluated test, Spec.ValidRanking items K (rank' u))
    (hrec : ∀ us : List Nat, us ≠ [] → (∀ u ∈ us, u ∈ Spec.evaluated test) →
      recommend us = .ok (us.map rank))
    (hrec' : ∀ us : List Nat, us ≠ [] → (∀ u ∈ us, u ∈ Spec.evaluated test) →
      recommend' us = .ok (us.map rank'))
    (hgood : ∀ u ∈ Spec.evaluated test,
      Spec.AtLeastAsGood (Spec.relevant (test.getD u [])) K (rank u) (rank' u)) :
    ∃ m m', rankingMetrics recommend B K items cg test = .ok m ∧
      rankingMetrics recommend' B' K items cg test = .ok m' ∧
      m'.precision ≤ m.precision ∧ m'.map ≤ m.map ∧ m'.ndcg ≤ m.ndcg ∧ m'.auc ≤ m.auc ∧
      ((∃ u ∈ Spec.evaluated test, Spec.Better (Spec.relevant (test.getD u [])) K (rank u) (rank' u)) →
        m'.map < m.map ∧ m'.ndcg < m.ndcg ∧ m'.auc < m.auc) ∧
      ((∃ u ∈ Spec.evaluated test, Spec.hits (Spec.relevant (test.getD u [])) (rank' u) <
        Spec.hits (Spec.relevant (test.getD u [])) (rank u)) → m'.precision < m.precision) := by
  refine ⟨_, _, C34_metrics recommend B hB K items hK cg test rank hne htest hrank hrec,
    C34_metrics recommend' B' hB' K items hK cg test rank' hne htest hrank' hrec', ?_⟩
  have himp := fun u (hu : u ∈ Spec.evaluated test) => improves K items hK cg hcg hanti
    (Spec.relevant (test.getD u [])) (relevant_subset (htest u hu).existing)
    (relevant_pos (mem_filter.mp hu).2) (htest u hu).proper (rank u) (rank' u) (hrank u hu) (hrank' u hu)
    (hgood u hu)
  have hcard : (0 : R) < ((Spec.evaluated test).card : R) := by exact_mod_cast card_pos.mpr hne
  have hdiv : (0 : R) < ∑ u ∈ Spec.evaluated test, (Spec.bestHits (Spec.relevant (test.getD u [])) K : R) := by
    refine sum_pos (fun u hu => ?_) hne
    have : 0 < (Spec.relevant (test.getD u [])).card := relevant_pos (mem_filter.mp hu).2
    unfold Spec.bestHits
    exact_mod_cast (by omega : 0 < min K (Spec.relevant (test.getD u [])).card)
  refine ⟨?_, ?_, ?_, ?_, ?_, ?_⟩
  · exact div_le_div_of_nonneg_right (sum_le_sum fun u hu => by exact_mod_cast (himp u hu).hits) hdiv.le
  · exact div_le_div_of_nonneg_right (sum_le_sum fun u hu => (himp u hu).map) hcard.le
  · exact div_le_div_of_nonneg_right (sum_le_sum fun u hu => (himp u hu).ndcg) hcard.le
  · exact div_le_div_of_nonneg_right (sum_le_sum fun u hu => (himp u hu).auc) hcard.le
  · rintro ⟨u, hu, _, hex⟩
    exact ⟨div_lt_div_of_pos_right (sum_lt_sum (fun v hv => (himp v hv).map)
        ⟨u, hu, (himp u hu).mapStrict hex⟩) hcard,
      div_lt_div_of_pos_right (sum_lt_sum (fun v hv => (himp v hv).ndcg)
        ⟨u, hu, (himp u hu).ndcgStrict hex⟩) hcard,
      div_lt_div_of_pos_right (sum_lt_sum (fun v hv => (himp v hv).auc)
        ⟨u, hu, (himp u hu).aucStrict hex⟩) hcard⟩
  · rintro ⟨u, hu, hlt⟩
    exact div_lt_div_of_pos_right (sum_lt_sum (fun v hv => by exact_mod_cast (himp v hv).hits)
      ⟨u, hu, by exact_mod_cast hlt⟩) hdiv

/-- The discounts of the code fall strictly. -/
theorem C87_discount (i : Nat) : log2Discount (i + 1) < log2Discount i := by
  unfold log2Discount
  have h0 : (0 : ℝ) ≤ (i : ℝ) := Nat.cast_nonneg i
  have hpos : 0 < Real.logb 2 ((i : ℝ) + 2) := Real.logb_pos (by norm_num) (by linarith)
  refine one_div_lt_one_div_of_lt hpos ?_
  push_cast
  exact Real.logb_lt_logb (by norm_num) (by linarith) (by linarith)

/-! ## Ways to be better -/

/-- Moving a relevant item up. -/
theorem C87_promote (rel : Finset Int) (K : Nat) (a b c : List Int) (y : Int) (hy : y ∈ rel) :
    Spec.AtLeastAsGood rel K (a ++ y :: (b ++ c)) (a ++ (b ++ y :: c)) ∧
      ((∃ x ∈ b, x ∉ rel) → a.length + b.length ≤ K →
        Spec.Better rel K (a ++ y :: (b ++ c)) (a ++ (b ++ y :: c))) := by
  have happ : ∀ p q : List Int, Spec.hits rel (p ++ q) = Spec.hits rel p + Spec.hits rel q :=
    fun p q => List.countP_append
  have hcons : ∀ (x : Int) (q : List Int), Spec.hits rel (x :: q) = Spec.hits rel q + if x ∈ rel then 1 else 0 := by
    intro x q
    unfold Spec.hits
    rw [List.countP_cons]
    simp
  have hstep : ∀ (q : List Int) (k : Nat), Spec.hits rel (q.take (k + 1)) ≤ Spec.hits rel (q.take k) + 1 := by
    intro q k
    rcases Nat.lt_or_ge k q.length with hk | hk
    · rw [hits_take_succ rel q k hk]
      split <;> omega
    · rw [List.take_of_length_le hk, List.take_of_length_le (by omega)]
      omega
  have htake : ∀ (p q : List Int) (i : Nat), Spec.hits rel ((p ++ q).take i) =
      Spec.hits rel (p.take i) + Spec.hits rel (q.take (i - p.length)) := fun p q i => by
    rw [List.take_append, happ]
  have hge : Spec.AtLeastAsGood rel K (a ++ y :: (b ++ c)) (a ++ (b ++ y :: c)) := by
    intro i _
    rw [htake a, htake a]
    refine Nat.add_le_add_left ?_ _
    generalize i - a.length = k
    cases k with
    | zero => simp
    | succ k =>
      rw [List.take_succ_cons, hcons, if_pos hy, htake b, htake b]
      rcases Nat.lt_or_ge k b.length with hk | hk
      · rw [show k + 1 - b.length = 0 by omega, show k - b.length = 0 by omega, List.take_zero, List.take_zero]
        have := hstep b k
        omega
      · rw [List.take_of_length_le (l := b) (by omega), List.take_of_length_le (l := b) (by omega),
          show k + 1 - b.length = (k - b.length) + 1 by omega, List.take_succ_cons, hcons, if_pos hy]
        omega
  refine ⟨hge, fun ⟨x, hx, hxr⟩ hK => ⟨hge, ?_⟩⟩
  obtain ⟨b1, b2, rfl⟩ := List.append_of_mem hx
  refine ⟨a.length + (b1.length + 1), ?_, ?_⟩
  · simp only [List.length_append, List.length_cons] at hK
    omega
  · rw [htake a, htake a, show a.length + (b1.length + 1) - a.length = b1.length + 1 by omega,
      List.take_succ_cons, hcons, if_pos hy, List.append_assoc, List.append_assoc, htake b1, htake b1,
      show b1.length + 1 - b1.length = 1 by omega, show b1.length - b1.length = 0 by omega,
      List.take_of_length_le (l := b1) (by omega), List.take_of_length_le (l := b1) (le_refl _)]
    have h1 : Spec.hits rel ((x :: b2 ++ y :: c).take 1) = 0 := by
      rw [List.cons_append, List.take_succ_cons, hcons, if_neg hxr, List.take_zero]
      rfl
    rw [h1, List.take_zero, show Spec.hits rel [] = 0 from rfl]
    omega

/-- Replacing an item that is not relevant by one that is. -/
theorem C87_replace (rel : Finset Int) (K : Nat) (a c : List Int) (x y : Int) (hy : y ∈ rel) (hx : x ∉ rel)
    (hK : a.length < K) : Spec.Better rel K (a ++ y :: c) (a ++ x :: c) := by
  have htake : ∀ (q : List Int) (i : Nat), Spec.hits rel ((a ++ q).take i) =
      Spec.hits rel (a.take i) + Spec.hits rel (q.take (i - a.length)) := fun q i => by
    rw [List.take_append]
    exact List.countP_append
  have hcons : ∀ (z : Int) (q : List Int), Spec.hits rel (z :: q) = Spec.hits rel q + if z ∈ rel then 1 else 0 := by
    intro z q
    unfold Spec.hits
    rw [List.countP_cons]
    simp
  refine ⟨fun i _ => ?_, a.length + 1, hK, ?_⟩
  · rw [htake, htake]
    refine Nat.add_le_add_left ?_ _
    generalize i - a.length = k
    cases k with
    | zero => simp
    | succ k =>
      rw [List.take_succ_cons, List.take_succ_cons, hcons, hcons, if_pos hy, if_neg hx]
      omega
  · rw [htake, htake, show a.length + 1 - a.length = 0 + 1 by omega, List.take_succ_cons,
      List.take_succ_cons, hcons, hcons, if_pos hy, if_neg hx]
    omega

/-! ## Examples -/

/-- Two users of five items.  The second model finds the same items for user 0 later, and one fewer for
user 1. -/
example :
    let test : SpRows Rat := [[(0, 1), (3, 1)], [(1, 5), (2, 1)]]
    let good := fun us : List Nat => (.ok (us.map fun u => if u = 0 then [0, 4, 3] else [1, 2, 0]) :
      Except Err (List (List Int)))
    let bad := fun us : List Nat => (.ok (us.map fun u => if u = 0 then [4, 0, 3] else [1, 4, 0]) :
      Except Err (List (List Int)))
    rankingMetrics good metricsBatchSize 3 5 exampleCg test = .ok ⟨1, 11 / 12, 17 / 18, 11 / 12⟩ ∧
    rankingMetrics bad metricsBatchSize 3 5 exampleCg test = .ok ⟨3 / 4, 13 / 24, 11 / 18, 5 / 8⟩ := by
  decide +kernel

/-- The two lists of user 0 are ordered by `C87_promote`. -/
example : Spec.Better ({0, 3} : Finset Int) 3 [0, 4, 3] [4, 0, 3] :=
  (C87_promote {0, 3} 3 [] [4] [3] 0 (by decide)).2 ⟨4, by simp, by decide⟩ (by decide)

/-- Those of user 1 by `C87_replace`. -/
example : Spec.Better ({1, 2} : Finset Int) 3 [1, 2, 0] [1, 4, 0] :=
  C87_replace {1, 2} 3 [1] [0] 4 2 (by decide) (by decide) (by decide)

/-- Discounts that fall strictly are needed: with equal ones, moving an item up changes nothing. -/
example :
    let test : SpRows Rat := [[(0, 1)]]
    (rankingMetrics (fun us => .ok (us.map fun _ => [0, 1])) metricsBatchSize 2 3 (fun _ => 1) test).map (·.ndcg) =
      (rankingMetrics (fun us => .ok (us.map fun _ => [1, 0])) metricsBatchSize 2 3 (fun _ => 1) test).map (·.ndcg) := by
  decide +kernel

/-- Lists that neither rule orders can be ordered differently by two metrics: one hit in the first place of
seven against two in the last ones. -/
example :
    let test : SpRows Rat := [[(0, 1), (1, 1)]]
    let first := fun us : List Nat => (.ok (us.map fun _ => [0, 2, 3, 4, 5, 6, 7]) : Except Err (List (List Int)))
    let last := fun us : List Nat => (.ok (us.map fun _ => [2, 3, 4, 5, 6, 0, 1]) : Except Err (List (List Int)))
    ∃ m m', rankingMetrics first metricsBatchSize 7 9 exampleCg test = .ok m ∧
      rankingMetrics last metricsBatchSize 7 9 exampleCg test = .ok m' ∧
      m'.map < m.map ∧ m'.ndcg < m.ndcg ∧ m.precision < m'.precision := by
  refine ⟨⟨1 / 2, 1 / 2, 2 / 3, 15 / 28⟩, ⟨1, 19 / 84, 13 / 63, 2 / 7⟩, ?_, ?_, ?_⟩ <;> decide +kernel

end Implicit
