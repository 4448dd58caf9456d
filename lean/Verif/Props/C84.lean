import Verif.Lemmas.Ieee
import Mathlib.Analysis.SpecialFunctions.Log.Deriv
/-!
# C84 — ranking metrics in floating point
-/

set_option linter.unusedSectionVars false

namespace Implicit

open Finset

section
variable {R : Type} [LinearOrder R] [Field R] [IsStrictOrderedRing R]

/-- The result in terms of the accumulators. -/
theorem roundRanking_ok (r : Rounding R) {B : Nat} (hr : r.Orderly B) (recommend : List Nat → Except Err (List (List Int))) (b : Nat)
    (hb : 1 ≤ b) (K items : Nat) (hK : 1 ≤ K) (hi : 2 * (items * items) ≤ B) (cg : Nat → R) (test : SpRows R)
    (rank : Nat → List Int) (hne : (Spec.evaluated test).Nonempty) (hB : 2 * ((Spec.evaluated test).card * K) ≤ B)
    (htest : ∀ u ∈ Spec.evaluated test, Spec.ValidTest items (test.getD u []))
    (hrank : ∀ u ∈ Spec.evaluated test, Spec.ValidRanking items K (rank u))
    (hrec : ∀ us : List Nat, us ≠ [] → (∀ u ∈ us, u ∈ Spec.evaluated test) →
      recommend us = .ok (us.map rank)) :
    ∃ s, RoundInv r K items cg test rank (testUsers test) s ∧
      roundRankingMetrics r recommend b K items cg test = .ok
        ⟨r.rnd (s.relevant / s.prDiv), r.rnd (s.meanAp / s.total), r.rnd (s.ndcg / s.total), r.rnd (s.meanAuc / s.total)⟩ ∧
      0 < s.prDiv ∧ s.relevant ≤ s.prDiv := by
  have hprop : ∀ u ∈ testUsers test, ProperUser K items test rank u := fun u hu => by
    have hu := (mem_testUsers test u).mp hu
    exact ⟨(mem_filter.mp hu).2, htest u hu, hrank u hu⟩
  obtain ⟨s, e, hs⟩ := roundMetricsLoop_ok hr hK hi recommend b hb (testUsers test).length (testUsers test) (le_refl _)
    (RoundInv.nil r K items cg test rank) (by simpa using hprop) (by rw [List.nil_append, testUsers_length]; exact hB)
    (fun vs hvs hv => hrec vs hvs fun v hv' => (mem_testUsers test v).mp (hv v hv'))
  rw [List.nil_append] at hs
  have hle : ((testUsers test).map fun u => Spec.hits (Spec.relevant (test.getD u [])) (rank u)).sum ≤
      ((testUsers test).map fun u => Spec.bestHits (Spec.relevant (test.getD u [])) K).sum :=
    List.sum_le_sum fun u hu => hits_le_best _ (hprop u hu).2.2
  have hpos : 0 < ((testUsers test).map fun u => Spec.bestHits (Spec.relevant (test.getD u [])) K).sum := by
    obtain ⟨u, hu⟩ := hne
    have h1 : 0 < Spec.bestHits (Spec.relevant (test.getD u [])) K := by
      have : 0 < (Spec.relevant (test.getD u [])).card := relevant_pos (mem_filter.mp hu).2
      unfold Spec.bestHits; omega
    exact h1.trans_le (List.single_le_sum (fun _ _ => Nat.zero_le _) _
      (List.mem_map.mpr ⟨u, (mem_testUsers test u).mpr hu, rfl⟩))
  have hp0 : 0 < s.prDiv := by rw [hs.prDiv]; exact_mod_cast hpos
  have ht0 : s.total ≠ 0 := by
    rw [hs.total, Ne, Nat.cast_eq_zero, testUsers_length, card_eq_zero]
    exact hne.ne_empty
  refine ⟨s, hs, ?_, hp0, by rw [hs.relevant, hs.prDiv]; exact_mod_cast hle⟩
  unfold roundRankingMetrics
  simp only [e, bind, Except.bind]
  rw [if_neg hp0.ne', if_neg ht0]
  rfl

/-- Discounts as `np.log2` gives them: floats that start at 1 and do not increase (`implicit/evaluation.pyx:408`). -/
structure Spec.Discounts (rnd : R → R) (K : Nat) (cg : Nat → R) : Prop where
  first : cg 0 = 1
  float : ∀ i < K, rnd (cg i) = cg i
  pos : ∀ i < K, 0 < cg i
  anti : ∀ i j, i ≤ j → j < K → cg j ≤ cg i

theorem foldl_nonneg {r : Rounding R} {B : Nat} (hr : r.Orderly B) (l : List R) (hl : ∀ v ∈ l, 0 ≤ v) {s : R} (hs : 0 ≤ s) :
    0 ≤ l.foldl (fun s v => r.rnd (s + v)) s := by
  induction l generalizing s with
  | nil => exact hs
  | cons v l ih =>
    exact ih (fun w hw => hl w (by simp [hw])) (hr.nonneg (add_nonneg hs (hl v (by simp))))

theorem roundCgSum_nonneg {r : Rounding R} {B : Nat} (hr : r.Orderly B) {K : Nat} {cg : Nat → R} (hcg : ∀ i < K, 0 ≤ cg i) :
    ∀ n ≤ K, 0 ≤ roundCgSum r cg n
  | 0, _ => le_refl _
  | 1, h => hcg 0 (by omega)
  | n + 2, h => hr.nonneg (add_nonneg (roundCgSum_nonneg hr hcg (n + 1) (by omega)) (hcg _ (by omega)))

theorem mem_hitPlaces {rel : Finset Int} {l : List Int} {i : Nat} (h : i ∈ hitPlaces rel l) : i < l.length := by
  unfold hitPlaces at h
  obtain ⟨p, hp, rfl⟩ := List.mem_map.mp h
  have := List.mem_zipIdx (List.mem_filter.mp hp).1
  omega

/-- **C84** (range).  Whatever the order of the users, the batch size and the recommendations, rounding does not push precision, MAP
or AUC out of `[0, 1]`, nor NDCG below 0.  (NDCG can exceed 1: `C84_ndcg_violated`.) -/
theorem C84_range (r : Rounding R) (B : Nat) (hr : r.Orderly B) (recommend : List Nat → Except Err (List (List Int))) (b : Nat)
    (hb : 1 ≤ b) (K items : Nat) (hK : 1 ≤ K) (hi : 2 * (items * items) ≤ B) (cg : Nat → R) (hcg : ∀ i < K, 0 ≤ cg i)
    (test : SpRows R) (rank : Nat → List Int) (hne : (Spec.evaluated test).Nonempty)
    (hB : 2 * ((Spec.evaluated test).card * K) ≤ B)
    (htest : ∀ u ∈ Spec.evaluated test, Spec.ValidTest items (test.getD u []))
    (hrank : ∀ u ∈ Spec.evaluated test, Spec.ValidRanking items K (rank u))
    (hrec : ∀ us : List Nat, us ≠ [] → (∀ u ∈ us, u ∈ Spec.evaluated test) →
      recommend us = .ok (us.map rank)) :
    ∃ m, roundRankingMetrics r recommend b K items cg test = .ok m ∧ (0 ≤ m.precision ∧ m.precision ≤ 1) ∧
      (0 ≤ m.map ∧ m.map ≤ 1) ∧ 0 ≤ m.ndcg ∧ 0 ≤ m.auc ∧ m.auc ≤ 1 := by
  obtain ⟨s, hs, e, hp0, hle⟩ := roundRanking_ok r hr recommend b hb K items hK hi cg test rank hne hB htest hrank hrec
  refine ⟨_, e, ?_⟩
  have hcard : 1 ≤ (Spec.evaluated test).card := card_pos.mpr hne
  have hone : 2 * 1 ≤ B := by nlinarith
  have ht : s.total = ((testUsers test).length : R) := hs.total
  have ht0 : 0 < s.total := by rw [ht, testUsers_length]; exact_mod_cast hcard
  have hunit : ∀ x : R, 0 ≤ x → x ≤ 1 → 0 ≤ r.rnd x ∧ r.rnd x ≤ 1 := fun x h0 h1 =>
    ⟨hr.nonneg h0, by simpa using hr.le_nat (n := 1) hone (by simpa using h1)⟩
  refine ⟨hunit _ (div_nonneg ?_ hp0.le) ((div_le_one hp0).mpr hle),
    hunit _ (div_nonneg hs.ap0 ht0.le) ((div_le_one ht0).mpr (by rw [ht]; exact hs.ap1)),
    hr.nonneg (div_nonneg ?_ ht0.le), hunit _ (div_nonneg hs.auc0 ht0.le) ((div_le_one ht0).mpr (by rw [ht]; exact hs.auc1))⟩
  · rw [hs.relevant]; exact Nat.cast_nonneg _
  · rw [hs.ndcg]
    refine foldl_nonneg hr _ ?_ (le_refl _)
    intro v hv
    obtain ⟨q, hq, rfl⟩ := List.mem_map.mp hv
    obtain ⟨u, hu, hq⟩ := List.mem_flatMap.mp hq
    obtain ⟨i, hi', rfl⟩ := List.mem_map.mp hq
    have := mem_hitPlaces hi'
    rw [(hrank u ((mem_testUsers test u).mp hu)).length] at this
    refine hr.nonneg (mul_nonneg (hcg i this) ?_)
    exact one_div_nonneg.mpr (roundCgSum_nonneg hr hcg _ (min_le_left _ _))

/-- **C84** (a perfect model).  If for every user the relevant items come first, precision and MAP are 1 without any error. -/
theorem C84_perfect (r : Rounding R) (B : Nat) (hr : r.Orderly B) (recommend : List Nat → Except Err (List (List Int))) (b : Nat)
    (hb : 1 ≤ b) (K items : Nat) (hK : 1 ≤ K) (hi : 2 * (items * items) ≤ B) (cg : Nat → R)
    (test : SpRows R) (rank : Nat → List Int) (hne : (Spec.evaluated test).Nonempty)
    (hB : 2 * ((Spec.evaluated test).card * K) ≤ B)
    (htest : ∀ u ∈ Spec.evaluated test, Spec.ValidTest items (test.getD u []))
    (hrank : ∀ u ∈ Spec.evaluated test, Spec.ValidRanking items K (rank u))
    (hperf : ∀ u ∈ Spec.evaluated test, Spec.Perfect (Spec.relevant (test.getD u [])) K (rank u))
    (hrec : ∀ us : List Nat, us ≠ [] → (∀ u ∈ us, u ∈ Spec.evaluated test) →
      recommend us = .ok (us.map rank)) :
    ∃ m, roundRankingMetrics r recommend b K items cg test = .ok m ∧ m.precision = 1 ∧ m.map = 1 := by
  obtain ⟨s, hs, e, hp0, hle⟩ := roundRanking_ok r hr recommend b hb K items hK hi cg test rank hne hB htest hrank hrec
  refine ⟨_, e, ?_⟩
  have hcard : 1 ≤ (Spec.evaluated test).card := card_pos.mpr hne
  have hone : r.rnd 1 = 1 := by
    have := hr.nat (n := 1) (by nlinarith)
    simpa using this
  have ht0 : s.total ≠ 0 := by
    rw [hs.total, testUsers_length, Ne, Nat.cast_eq_zero]
    omega
  refine ⟨?_, ?_⟩
  · have : s.relevant = s.prDiv := by
      rw [hs.relevant, hs.prDiv]
      congr 2
      refine List.map_congr_left fun u hu => ?_
      have hu := (mem_testUsers test u).mp hu
      refine le_antisymm (hits_le_best _ (hrank u hu)) ?_
      rw [← hits_of_perfect (hrank u hu) (hperf u hu) _ (le_refl _)]
      refine (le_of_eq ?_).trans (List.Sublist.countP_le (List.take_sublist (Spec.bestHits (Spec.relevant (test.getD u [])) K) _))
      rw [hits_of_perfect (hrank u hu) (hperf u hu) _ (le_refl _)]
      exact (hits_of_perfect (hrank u hu) (hperf u hu) _ (le_refl _)).symm
    simp only
    rw [this, div_self hp0.ne', hone]
  · simp only
    rw [hs.perfect fun u hu => hperf u ((mem_testUsers test u).mp hu), hs.total, div_self (by rw [← hs.total]; exact ht0), hone]

/-- A mean of values between 0 and 1. -/
theorem mean_error (r : Rounding R) {N : Nat} (hN : 1 ≤ N) {s t e : R} (h0 : 0 ≤ s) (h1 : s ≤ N)
    (hs : |s - t| ≤ unitError r.u r.η e N) : |r.rnd (s / N) - t / N| ≤ r.u * (N + 3) / 2 + 2 * r.η + e := by
  have hp : (0 : R) < N := by exact_mod_cast hN
  have e1 := r.err_le (b := 1) (div_nonneg h0 hp.le) (by rw [div_le_one hp]; exact h1)
  have e2 : |s / N - t / N| ≤ r.u * (N + 1) / 2 + r.η + e := by
    rw [← sub_div, abs_div, abs_of_pos hp, div_le_iff₀ hp]
    refine hs.trans (le_of_eq ?_)
    unfold unitError
    ring
  have e3 := abs_sub_le (r.rnd (s / N)) (s / N) (t / N)
  linarith

/-! ## NDCG -/

theorem roundCgSum_eq (r : Rounding R) {K : Nat} {cg : Nat → R} (hcg : Spec.Discounts r.rnd K cg) (h0 : r.rnd 0 = 0) :
    ∀ n ≤ K, roundCgSum r cg n = roundSum r ((List.range n).map fun i => (cg i, 1))
  | 0, _ => rfl
  | 1, h => by
    simp [roundCgSum, roundSum, hcg.float 0 (by omega)]
  | n + 2, h => by
    rw [roundCgSum, roundCgSum_eq r hcg h0 (n + 1) (by omega), List.range_succ (n := n + 1)]
    unfold roundSum
    rw [List.map_append, List.map_append, List.foldl_append]
    simp [hcg.float (n + 1) (by omega)]

theorem sumError_mono {u η : R} (hu : 0 ≤ u) (hη : 0 ≤ η) {m n : Nat} (h : m ≤ n) {A A' : R} (hA : 0 ≤ A) (hAA : A ≤ A') :
    Spec.sumError u η m A ≤ Spec.sumError u η n A' := by
  unfold Spec.sumError
  have h1 : (1 + u) ^ (m + 1) ≤ (1 + u) ^ (n + 1) := pow_le_pow_right₀ (by linarith) (by omega)
  have h2 : (1 : R) ≤ (1 + u) ^ (m + 1) := one_le_pow₀ (by linarith)
  have h3 : (m : R) ≤ n := by exact_mod_cast h
  have h4 : (0 : R) ≤ m := Nat.cast_nonneg _
  refine add_le_add (mul_le_mul (by linarith) hAA hA (by linarith)) ?_
  refine mul_le_mul_of_nonneg_right ?_ hη
  refine mul_le_mul (by linarith) h1 (by linarith) (by linarith)

theorem idealError_nonneg {u η : R} (hu : 0 ≤ u) (hη : 0 ≤ η) (K : Nat) : 0 ≤ Spec.idealError u η K := by
  unfold Spec.idealError Spec.sumError
  have : (1 : R) ≤ (1 + u) ^ (K + 1) := one_le_pow₀ (by linarith)
  have h2 : (0 : R) ≤ 2 * K * (1 + u) ^ (K + 1) * η := by positivity
  linarith

theorem map_range_sum (f : Nat → R) : ∀ n, ((List.range n).map f).sum = ∑ i ∈ range n, f i
  | 0 => by simp
  | n + 1 => by rw [List.range_succ, List.map_append, List.sum_append, map_range_sum f n, sum_range_succ]; simp

/-- The ideal DCG as the code computes it. -/
theorem ideal_error (r : Rounding R) {K : Nat} {cg : Nat → R} (hcg : Spec.Discounts r.rnd K cg) (h0 : r.rnd 0 = 0) {n : Nat}
    (hn : 1 ≤ n) (hnK : n ≤ K) : 1 ≤ ∑ i ∈ range n, cg i ∧
      |roundCgSum r cg n - ∑ i ∈ range n, cg i| ≤ Spec.idealError r.u r.η K * ∑ i ∈ range n, cg i := by
  have hu := r.u_nonneg
  have hη := r.η_nonneg
  have h1 : 1 ≤ ∑ i ∈ range n, cg i := by
    rw [← hcg.first]
    exact single_le_sum (f := cg) (fun i hi => (hcg.pos i (by rw [mem_range] at hi; omega)).le) (mem_range.mpr hn)
  refine ⟨h1, ?_⟩
  have he := roundSum_error r ((List.range n).map fun i => (cg i, (1 : R)))
  rw [← roundCgSum_eq r hcg h0 n hnK] at he
  have e1 : (((List.range n).map fun i => (cg i, (1 : R))).map fun p => p.1 * p.2).sum = ∑ i ∈ range n, cg i := by
    rw [List.map_map, ← map_range_sum]
    simp [Function.comp_def]
  have e2 : (((List.range n).map fun i => (cg i, (1 : R))).map fun p => |p.1 * p.2|).sum = ∑ i ∈ range n, cg i := by
    rw [List.map_map, ← map_range_sum]
    congr 1
    refine List.map_congr_left fun i hi => ?_
    have := hcg.pos i (by rw [List.mem_range] at hi; omega)
    simp [abs_of_pos this]
  rw [e1, e2, List.length_map, List.length_range] at he
  refine he.trans ((sumError_mono hu hη hnK (by linarith) (le_refl _)).trans ?_)
  generalize ∑ i ∈ range n, cg i = I at h1
  unfold Spec.idealError Spec.sumError
  have h2 : (0 : R) ≤ 2 * K * (1 + r.u) ^ (K + 1) * r.η := by positivity
  have h3 := mul_le_mul_of_nonneg_left h1 h2
  linarith

theorem dcg_le_ideal (r : Rounding R) {items K : Nat} {cg : Nat → R} (hcg : Spec.Discounts r.rnd K cg) (hK : 1 ≤ K) (rel : Finset Int)
    {l : List Int} (hl : Spec.ValidRanking items K l) : 0 ≤ Spec.dcg cg rel l ∧ Spec.dcg cg rel l ≤ Spec.idealDcg cg rel K := by
  constructor
  · unfold Spec.dcg Spec.sumHits
    refine sum_nonneg fun i hi => ?_
    split
    · rw [mem_range, hl.length] at hi; exact (hcg.pos i hi).le
    · exact le_refl _
  · have h := C34_ideal (fun i => cg (min i (K - 1))) (fun i j hij => hcg.anti _ _ (by omega) (by omega))
      (fun i => (hcg.pos _ (by omega)).le) items K rel l hl
    have e1 : Spec.dcg (fun i => cg (min i (K - 1))) rel l = Spec.dcg cg rel l := by
      unfold Spec.dcg Spec.sumHits
      refine sum_congr rfl fun i hi => ?_
      rw [mem_range, hl.length] at hi
      beta_reduce
      rw [show min i (K - 1) = i by omega]
    have e2 : Spec.idealDcg (fun i => cg (min i (K - 1))) rel K = Spec.idealDcg cg rel K := by
      unfold Spec.idealDcg
      refine sum_congr rfl fun i hi => ?_
      have : i < K := (mem_range.mp hi).trans_le (min_le_left _ _)
      beta_reduce
      rw [show min i (K - 1) = i by omega]
    rwa [e1, e2] at h

/-- The exact sum of the terms of one user, with the ideal DCG as it is computed. -/
theorem ndcg_user (r : Rounding R) {items K : Nat} {cg : Nat → R} (hcg : Spec.Discounts r.rnd K cg) (h0 : r.rnd 0 = 0) (hK : 1 ≤ K)
    (hδ : Spec.idealError r.u r.η K < 1) (rel : Finset Int) (hrel : 0 < rel.card) {l : List Int} (hl : Spec.ValidRanking items K l) :
    ((ndcgPairs r K cg rel l).map fun q => |q.1 * q.2|).sum = ((ndcgPairs r K cg rel l).map fun q => q.1 * q.2).sum ∧
    ((ndcgPairs r K cg rel l).map fun q => q.1 * q.2).sum ≤ 1 / (1 - Spec.idealError r.u r.η K) ∧
    |((ndcgPairs r K cg rel l).map fun q => q.1 * q.2).sum - Spec.ndcg cg rel l K| ≤
      Spec.idealError r.u r.η K / (1 - Spec.idealError r.u r.η K) := by
  have hb : 1 ≤ Spec.bestHits rel K := by unfold Spec.bestHits; omega
  obtain ⟨hI, he⟩ := ideal_error r hcg h0 hb (min_le_left _ _)
  obtain ⟨hd0, hd1⟩ := dcg_le_ideal r hcg hK rel hl
  have hsum : ((ndcgPairs r K cg rel l).map fun q => q.1 * q.2).sum = Spec.dcg cg rel l / roundCgSum r cg (Spec.bestHits rel K) := by
    unfold ndcgPairs Spec.dcg
    rw [List.map_map, ← hitPlaces_sum]
    simp only [Function.comp_def, mul_one_div]
    induction hitPlaces rel l with
    | nil => simp
    | cons i is ih => simp only [List.map_cons, List.sum_cons, ih, add_div]
  have hδ0 := idealError_nonneg r.u_nonneg r.η_nonneg K
  rw [hsum]
  unfold Spec.ndcg
  change |roundCgSum r cg (Spec.bestHits rel K) - Spec.idealDcg cg rel K| ≤ Spec.idealError r.u r.η K * Spec.idealDcg cg rel K at he
  change 1 ≤ Spec.idealDcg cg rel K at hI
  have hJ : (1 - Spec.idealError r.u r.η K) * Spec.idealDcg cg rel K ≤ roundCgSum r cg (Spec.bestHits rel K) := by
    have := (abs_le.mp he).1
    linarith
  have hJ0 : 0 < roundCgSum r cg (Spec.bestHits rel K) := lt_of_lt_of_le (mul_pos (by linarith) (by linarith)) hJ
  refine ⟨?_, ?_, ?_⟩
  · rw [← hsum]
    congr 1
    refine List.map_congr_left fun q hq => ?_
    obtain ⟨i, hi, rfl⟩ := List.mem_map.mp hq
    have := mem_hitPlaces hi
    rw [hl.length] at this
    exact abs_of_nonneg (mul_nonneg (hcg.pos i this).le (one_div_nonneg.mpr hJ0.le))
  · generalize Spec.idealError r.u r.η K = δ at *
    generalize roundCgSum r cg (Spec.bestHits rel K) = J at *
    generalize Spec.idealDcg cg rel K = I at *
    generalize Spec.dcg cg rel l = D at *
    rw [div_le_div_iff₀ hJ0 (by linarith)]
    nlinarith
  · generalize Spec.idealError r.u r.η K = δ at *
    generalize roundCgSum r cg (Spec.bestHits rel K) = J at *
    generalize Spec.idealDcg cg rel K = I at *
    generalize Spec.dcg cg rel l = D at *
    have hI0 : 0 < I := by linarith
    have e : D / J - D / I = D / I * ((I - J) / J) := by
      field_simp
    rw [e, abs_mul, abs_of_nonneg (div_nonneg hd0 hI0.le), abs_div, abs_of_pos hJ0, abs_sub_comm]
    have h1 : D / I ≤ 1 := (div_le_one hI0).mpr hd1
    have h2 : |J - I| / J ≤ δ / (1 - δ) := by
      rw [div_le_div_iff₀ hJ0 (by linarith)]
      have := mul_le_mul_of_nonneg_left hJ hδ0
      have h3 := mul_le_mul_of_nonneg_right he (show 0 ≤ 1 - δ by linarith)
      linarith
    calc D / I * (|J - I| / J) ≤ 1 * (|J - I| / J) := mul_le_mul_of_nonneg_right h1 (div_nonneg (abs_nonneg _) hJ0.le)
      _ ≤ δ / (1 - δ) := by rw [one_mul]; exact h2

theorem sum_flatMap_map {α β : Type} (us : List α) (g : α → List β) (f : β → R) :
    ((us.flatMap g).map f).sum = (us.map fun u => ((g u).map f).sum).sum := by
  induction us with
  | nil => rfl
  | cons u us ih => simp only [List.flatMap_cons, List.map_append, List.sum_append, ih, List.map_cons, List.sum_cons]

theorem sum_le_length_mul {α : Type} (us : List α) (f : α → R) (c : R) (h : ∀ u ∈ us, f u ≤ c) : (us.map f).sum ≤ us.length * c := by
  induction us with
  | nil => simp
  | cons u us ih =>
    have h1 := h u (by simp)
    have h2 := ih fun v hv => h v (by simp [hv])
    simp only [List.map_cons, List.sum_cons, List.length_cons]
    push_cast
    linarith

theorem sum_abs_sub_le {α : Type} (us : List α) (f g : α → R) (c : R) (h : ∀ u ∈ us, |f u - g u| ≤ c) :
    |(us.map f).sum - (us.map g).sum| ≤ us.length * c := by
  induction us with
  | nil => simp
  | cons u us ih =>
    have h1 := abs_le.mp (h u (by simp))
    have h2 := abs_le.mp (ih fun v hv => h v (by simp [hv]))
    simp only [List.map_cons, List.sum_cons, List.length_cons]
    push_cast
    rw [abs_le]
    constructor <;> linarith [h1.1, h1.2, h2.1, h2.2]

/-- The sum of all terms of NDCG. -/
theorem ndcg_sum (r : Rounding R) {items K : Nat} {cg : Nat → R} (hcg : Spec.Discounts r.rnd K cg) (h0 : r.rnd 0 = 0) (hK : 1 ≤ K)
    (hδ : Spec.idealError r.u r.η K < 1) {test : SpRows R} {rank : Nat → List Int} (us : List Nat)
    (hus : ∀ u ∈ us, ProperUser K items test rank u) :
    |roundSum r (us.flatMap fun u => ndcgPairs r K cg (Spec.relevant (test.getD u [])) (rank u)) -
        (us.map fun u => Spec.ndcg cg (Spec.relevant (test.getD u [])) (rank u) K).sum| ≤ Spec.ndcgSumError r.u r.η K us.length := by
  have hu := r.u_nonneg
  have hη := r.η_nonneg
  have hδ0 := idealError_nonneg hu hη K
  have huser := fun u (h : u ∈ us) => ndcg_user r hcg h0 hK hδ (Spec.relevant (test.getD u [])) (relevant_pos (hus u h).1) (hus u h).2.2
  have he := roundSum_error r (us.flatMap fun u => ndcgPairs r K cg (Spec.relevant (test.getD u [])) (rank u))
  have hlen : (us.flatMap fun u => ndcgPairs r K cg (Spec.relevant (test.getD u [])) (rank u)).length ≤ us.length * K := by
    rw [List.length_flatMap]
    refine sum_map_le_mul fun u h => ?_
    unfold ndcgPairs
    rw [List.length_map, hitPlaces_length]
    exact (hits_le_best _ (hus u h).2.2).trans (min_le_left _ _)
  rw [sum_flatMap_map, sum_flatMap_map] at he
  have habs : (us.map fun u => ((ndcgPairs r K cg (Spec.relevant (test.getD u [])) (rank u)).map fun q => |q.1 * q.2|).sum).sum ≤
      us.length / (1 - Spec.idealError r.u r.η K) := by
    rw [div_eq_mul_one_div]
    refine sum_le_length_mul us _ _ fun u h => ?_
    rw [(huser u h).1]
    exact (huser u h).2.1
  have hpos : 0 ≤ (us.map fun u => ((ndcgPairs r K cg (Spec.relevant (test.getD u [])) (rank u)).map fun q => |q.1 * q.2|).sum).sum := by
    refine List.sum_nonneg fun x hx => ?_
    obtain ⟨u, -, rfl⟩ := List.mem_map.mp hx
    refine List.sum_nonneg fun y hy => ?_
    obtain ⟨q, -, rfl⟩ := List.mem_map.mp hy
    exact abs_nonneg _
  have h1 := he.trans (sumError_mono hu hη hlen hpos habs)
  have h2 := sum_abs_sub_le us (fun u => ((ndcgPairs r K cg (Spec.relevant (test.getD u [])) (rank u)).map fun q => q.1 * q.2).sum)
    (fun u => Spec.ndcg cg (Spec.relevant (test.getD u [])) (rank u) K) _ fun u h => (huser u h).2.2
  unfold Spec.ndcgSumError
  exact (abs_sub_le _ _ _).trans (add_le_add h1 h2)

/-- **C84** (errors).  `N` users are evaluated.  Precision is the exact value rounded once; MAP, NDCG and AUC differ from the exact
values by no more than the stated bounds, which do not depend on the recommendations. -/
theorem C84_error (r : Rounding R) (B : Nat) (hr : r.Orderly B) (recommend : List Nat → Except Err (List (List Int))) (b : Nat)
    (hb : 1 ≤ b) (K items : Nat) (hK : 1 ≤ K) (hi : 2 * (items * items) ≤ B) (cg : Nat → R) (hcg : Spec.Discounts r.rnd K cg)
    (hδ : Spec.idealError r.u r.η K < 1) (test : SpRows R) (rank : Nat → List Int) (hne : (Spec.evaluated test).Nonempty)
    (hB : 2 * ((Spec.evaluated test).card * K) ≤ B)
    (htest : ∀ u ∈ Spec.evaluated test, Spec.ValidTest items (test.getD u []))
    (hrank : ∀ u ∈ Spec.evaluated test, Spec.ValidRanking items K (rank u))
    (hrec : ∀ us : List Nat, us ≠ [] → (∀ u ∈ us, u ∈ Spec.evaluated test) →
      recommend us = .ok (us.map rank)) :
    ∃ m, roundRankingMetrics r recommend b K items cg test = .ok m ∧
      m.precision = r.rnd ((∑ u ∈ Spec.evaluated test, (Spec.hits (Spec.relevant (test.getD u [])) (rank u) : R)) /
        ∑ u ∈ Spec.evaluated test, (Spec.bestHits (Spec.relevant (test.getD u [])) K : R)) ∧
      |m.map - (∑ u ∈ Spec.evaluated test, Spec.averagePrecision (Spec.relevant (test.getD u [])) (rank u) K) /
        ((Spec.evaluated test).card : R)| ≤ r.u * (K + (Spec.evaluated test).card + 8) / 2 + 5 * r.η ∧
      |m.ndcg - (∑ u ∈ Spec.evaluated test, Spec.ndcg cg (Spec.relevant (test.getD u [])) (rank u) K) /
        ((Spec.evaluated test).card : R)| ≤ Spec.ndcgError r.u r.η K (Spec.evaluated test).card ∧
      |m.auc - (∑ u ∈ Spec.evaluated test, Spec.auc (Spec.relevant (test.getD u [])) (Spec.allItems items) (rank u)) /
        ((Spec.evaluated test).card : R)| ≤ r.u * ((Spec.evaluated test).card + 5) / 2 + 3 * r.η := by
  obtain ⟨s, hs, e, hp0, hle⟩ := roundRanking_ok r hr recommend b hb K items hK hi cg test rank hne hB htest hrank hrec
  refine ⟨_, e, ?_⟩
  have hN : 1 ≤ (testUsers test).length := by rw [testUsers_length]; exact card_pos.mpr hne
  have hprop : ∀ u ∈ testUsers test, ProperUser K items test rank u := fun u hu => by
    have hu := (mem_testUsers test u).mp hu
    exact ⟨(mem_filter.mp hu).2, htest u hu, hrank u hu⟩
  simp only [hs.total, ← sum_testUsers, ← testUsers_length]
  refine ⟨?_, ?_, ?_, ?_⟩
  · rw [hs.relevant, hs.prDiv]
    push_cast
    simp only [List.map_map, Function.comp_def]
  · refine (mean_error r hN hs.ap0 hs.ap1 hs.apErr).trans (le_of_eq ?_)
    unfold precisionError
    ring
  · have h1 := ndcg_sum r hcg hr.zero hK hδ (testUsers test) hprop
    rw [← hs.ndcg] at h1
    have hp : (0 : R) < ((testUsers test).length : R) := by exact_mod_cast hN
    set N : R := ((testUsers test).length : R) with hNdef
    set T := ((testUsers test).map fun u => Spec.ndcg cg (Spec.relevant (test.getD u [])) (rank u) K).sum with hT
    have hT1 : |T| ≤ N := by
      have h0 : 0 ≤ T := List.sum_nonneg fun x hx => by
        obtain ⟨u, hu, rfl⟩ := List.mem_map.mp hx
        have hd := dcg_le_ideal r hcg hK (Spec.relevant (test.getD u [])) (hprop u hu).2.2
        exact div_nonneg hd.1 (hd.1.trans hd.2)
      have h2 : T ≤ N * 1 := sum_le_length_mul _ _ _ fun u hu => by
        have hd := dcg_le_ideal r hcg hK (Spec.relevant (test.getD u [])) (hprop u hu).2.2
        exact div_le_one_of_le₀ hd.2 (hd.1.trans hd.2)
      rw [abs_of_nonneg h0]; linarith
    have e1 := r.err (s.ndcg / N)
    have e2 : |s.ndcg / N - T / N| ≤ Spec.ndcgSumError r.u r.η K (testUsers test).length / N := by
      rw [← sub_div, abs_div, abs_of_pos hp]
      exact div_le_div_of_nonneg_right h1 hp.le
    have e3 : |s.ndcg / N| ≤ 1 + Spec.ndcgSumError r.u r.η K (testUsers test).length / N := by
      have h3 : |T / N| ≤ 1 := by rw [abs_div, abs_of_pos hp, div_le_one hp]; exact hT1
      have h4 := abs_sub_abs_le_abs_sub (s.ndcg / N) (T / N)
      linarith
    have e4 := mul_le_mul_of_nonneg_left e3 r.u_nonneg
    have e5 := abs_sub_le (r.rnd (s.ndcg / N)) (s.ndcg / N) (T / N)
    unfold Spec.ndcgError
    rw [← hNdef]
    linarith
  · refine (mean_error r hN hs.auc0 hs.auc1 hs.aucErr).trans (le_of_eq ?_)
    ring

end

/-! ## Double precision -/

/-- The discounts in floating point (`implicit/evaluation.pyx:408`): logarithm and quotient rounded. -/
noncomputable def roundDiscount (r : Rounding ℝ) (i : Nat) : ℝ := r.rnd (1 / r.rnd (Real.logb 2 ((i : ℝ) + 2)))

theorem logb_bounds {K i : Nat} (hK : K ≤ 2 ^ 26) (hi : i < K) : 1 ≤ Real.logb 2 ((i : ℝ) + 2) ∧ Real.logb 2 ((i : ℝ) + 2) ≤ 32 := by
  have h0 : (0 : ℝ) ≤ (i : ℝ) := Nat.cast_nonneg i
  have h1 : (i : ℝ) ≤ 67108864 := by
    have : i ≤ 67108864 := hi.le.trans hK
    exact_mod_cast this
  constructor
  · rw [Real.le_logb_iff_rpow_le (by norm_num) (by linarith), Real.rpow_one]
    linarith
  · rw [Real.logb_le_iff_le_rpow (by norm_num) (by linarith)]
    rw [show (32 : ℝ) = ((32 : Nat) : ℝ) by norm_num, Real.rpow_natCast]
    have h2 : (2 : ℝ) ^ 32 = 4294967296 := by norm_num
    linarith

/-- The discounts of the code meet the hypothesis of `C84_error`. -/
theorem C84_discounts (K : Nat) (hK : K ≤ 2 ^ 26) :
    Spec.Discounts (ieee 53 (-1074) : Rounding ℝ).rnd K (roundDiscount (ieee 53 (-1074))) := by
  have hr : (ieee 53 (-1074) : Rounding ℝ).Orderly (2 ^ 53) := double_orderly
  have hone : (ieee 53 (-1074) : Rounding ℝ).rnd 1 = 1 := by
    have := hr.nat (n := 1) (by norm_num)
    simpa using this
  have hlog : ∀ i < K, 1 ≤ (ieee 53 (-1074) : Rounding ℝ).rnd (Real.logb 2 ((i : ℝ) + 2)) ∧
      (ieee 53 (-1074) : Rounding ℝ).rnd (Real.logb 2 ((i : ℝ) + 2)) ≤ 32 := by
    intro i hi
    obtain ⟨h1, h2⟩ := logb_bounds hK hi
    refine ⟨by rw [← hone]; exact hr.mono h1, ?_⟩
    have := hr.le_nat (n := 32) (x := Real.logb 2 ((i : ℝ) + 2)) (by norm_num) (by simpa using h2)
    simpa using this
  refine ⟨?_, fun i _ => ?_, fun i hi => ?_, fun i j hij hj => ?_⟩
  · unfold roundDiscount
    rw [Nat.cast_zero, zero_add, Real.logb_self_eq_one (by norm_num), hone, div_one, hone]
  · exact ieeeBits_idem (by norm_num) _ _
  · have h := hlog i hi
    have h32 : (ieee 53 (-1074) : Rounding ℝ).rnd (1 / 32) = 1 / 32 := by
      have := ieeeBits_scaled (R := ℝ) (p := 53) (by norm_num) (emin := -1074) (e := -5) (by norm_num) 1 (by norm_num)
      have e : ((1 : Int) : ℝ) * 2 ^ (-5 : Int) = 1 / 32 := by norm_num
      rw [e] at this
      exact this
    have h1 : (1 : ℝ) / 32 ≤ 1 / (ieee 53 (-1074) : Rounding ℝ).rnd (Real.logb 2 ((i : ℝ) + 2)) :=
      one_div_le_one_div_of_le (by linarith) h.2
    have h2 := hr.mono h1
    rw [h32] at h2
    exact lt_of_lt_of_le (by norm_num) h2
  · have h1 := hlog i (by omega)
    refine hr.mono (one_div_le_one_div_of_le (by linarith) (hr.mono ?_))
    have hij' : (i : ℝ) ≤ (j : ℝ) := by exact_mod_cast hij
    have h0 : (0 : ℝ) ≤ (i : ℝ) := Nat.cast_nonneg i
    exact Real.logb_le_logb_of_le (by norm_num) (by linarith) (by linarith)

theorem pow_small {k : Nat} {c : ℝ} (hk : (k : ℝ) * 2 ^ (-53 : Int) ≤ c) (hc : c < 1) : (1 + (2 : ℝ) ^ (-53 : Int)) ^ k ≤ 1 / (1 - c) := by
  have hu : (0 : ℝ) ≤ 2 ^ (-53 : Int) := by positivity
  have h1 := pow_mul_le_one hu k
  rw [le_div_iff₀ (by linarith)]
  have hp : 0 ≤ (1 + (2 : ℝ) ^ (-53 : Int)) ^ k := by positivity
  exact (mul_le_mul_of_nonneg_left (by linarith) hp).trans h1

theorem double_tiny : (0 : ℝ) ≤ 2 ^ (-1074 - 1 : Int) ∧ (2 : ℝ) ^ (-1074 - 1 : Int) ≤ 1 / 10 ^ 30 := by
  refine ⟨by positivity, ?_⟩
  have h1 : (2 : ℝ) ^ (-1074 - 1 : Int) ≤ 2 ^ (-100 : Int) := zpow_le_zpow_right₀ (by norm_num) (by norm_num)
  have h2 : (2 : ℝ) ^ (-100 : Int) ≤ 1 / 10 ^ 30 := by norm_num
  exact h1.trans h2

theorem ideal_double {K : Nat} (hK : (K : ℝ) ≤ 67108864) :
    Spec.idealError ((2 : ℝ) ^ (-53 : Int)) (2 ^ (-1074 - 1 : Int)) K ≤ 1 / 10 ^ 7 := by
  obtain ⟨hη0, hη⟩ := double_tiny
  unfold Spec.idealError Spec.sumError
  have h53 : (2 : ℝ) ^ (-53 : Int) = 1 / 9007199254740992 := by norm_num
  have hu : (0 : ℝ) ≤ 2 ^ (-53 : Int) := by positivity
  have h1 := pow_small (k := K + 1) (c := 1 / (2 * 10 ^ 7)) (by
    rw [h53]
    push_cast
    linarith) (by norm_num)
  have h0 : (0 : ℝ) ≤ (1 + (2 : ℝ) ^ (-53 : Int)) ^ (K + 1) := by positivity
  generalize (1 + (2 : ℝ) ^ (-53 : Int)) ^ (K + 1) = x at *
  generalize (2 : ℝ) ^ (-1074 - 1 : Int) = η at *
  have hx : x ≤ 1 + 1 / (15 * 10 ^ 6) := h1.trans (by norm_num)
  have h2 : 2 * (K : ℝ) * x * η ≤ 2 * 67108864 * 2 * (1 / 10 ^ 30) :=
    mul_le_mul (mul_le_mul (by linarith) (hx.trans (by norm_num)) h0 (by norm_num)) hη hη0 (by norm_num)
  linarith

theorem ndcg_double {K N : Nat} (hK : (K : ℝ) ≤ 67108864) (hN : (1 : ℝ) ≤ (N : ℝ)) (hNK : ((N * K : Nat) : ℝ) ≤ 10 ^ 9) :
    Spec.ndcgError ((2 : ℝ) ^ (-53 : Int)) (2 ^ (-1074 - 1 : Int)) K N ≤ 1 / 10 ^ 6 := by
  obtain ⟨hη0, hη⟩ := double_tiny
  have hδ := ideal_double hK
  have h53 : (2 : ℝ) ^ (-53 : Int) = 1 / 9007199254740992 := by norm_num
  have hu : (0 : ℝ) ≤ 2 ^ (-53 : Int) := by positivity
  have hδ0 := idealError_nonneg hu hη0 K
  have hx := pow_small (k := N * K + 1) (c := 1 / (5 * 10 ^ 6)) (by
    rw [h53]
    push_cast at hNK ⊢
    linarith) (by norm_num)
  have hx1 : (1 : ℝ) ≤ (1 + (2 : ℝ) ^ (-53 : Int)) ^ (N * K + 1) := one_le_pow₀ (by linarith)
  unfold Spec.ndcgError Spec.ndcgSumError Spec.sumError
  generalize Spec.idealError ((2 : ℝ) ^ (-53 : Int)) (2 ^ (-1074 - 1 : Int)) K = δ at *
  generalize (1 + (2 : ℝ) ^ (-53 : Int)) ^ (N * K + 1) = x at *
  generalize ((N * K : Nat) : ℝ) = T at *
  generalize (N : ℝ) = n at *
  generalize (2 : ℝ) ^ (-1074 - 1 : Int) = η at *
  have hx' : x - 1 ≤ 1 / (4 * 10 ^ 6) := by
    have : (1 : ℝ) / (1 - 1 / (5 * 10 ^ 6)) ≤ 1 + 1 / (4 * 10 ^ 6) := by norm_num
    linarith
  have hd1 : (0 : ℝ) < 1 - δ := by linarith
  have e : ((x - 1) * (n / (1 - δ)) + 2 * T * x * η + n * (δ / (1 - δ))) / n = (x - 1) / (1 - δ) + 2 * T * x * η / n + δ / (1 - δ) := by
    field_simp
  rw [e]
  have h1 : (x - 1) / (1 - δ) ≤ 3 / 10 ^ 7 := by
    rw [div_le_iff₀ hd1]
    have : (3 : ℝ) / 10 ^ 7 * (1 - 1 / 10 ^ 7) ≤ 3 / 10 ^ 7 * (1 - δ) := mul_le_mul_of_nonneg_left (by linarith) (by norm_num)
    have h' : (1 : ℝ) / (4 * 10 ^ 6) ≤ 3 / 10 ^ 7 * (1 - 1 / 10 ^ 7) := by norm_num
    linarith
  have h2 : δ / (1 - δ) ≤ 2 / 10 ^ 7 := by
    rw [div_le_iff₀ hd1]
    linarith
  have h3 : 2 * T * x * η / n ≤ 1 / 10 ^ 10 := by
    rw [div_le_iff₀ (by linarith)]
    have k1 : 2 * T * x * η ≤ 2 * 10 ^ 9 * 2 * (1 / 10 ^ 30) :=
      mul_le_mul (mul_le_mul (by linarith) (by linarith) (by linarith) (by norm_num)) hη hη0 (by norm_num)
    have k2 : (2 : ℝ) * 10 ^ 9 * 2 * (1 / 10 ^ 30) ≤ 1 / 10 ^ 10 * 1 := by norm_num
    have k3 : (1 : ℝ) / 10 ^ 10 * 1 ≤ 1 / 10 ^ 10 * n := mul_le_mul_of_nonneg_left hN (by norm_num)
    linarith
  rw [h53]
  have h4 : (1 + (1 : ℝ) / 9007199254740992) * ((x - 1) / (1 - δ) + 2 * T * x * η / n + δ / (1 - δ)) ≤
      (1 + 1 / 9007199254740992) * (3 / 10 ^ 7 + 1 / 10 ^ 10 + 2 / 10 ^ 7) :=
    mul_le_mul_of_nonneg_left (by linarith) (by norm_num)
  have h5 : (1 + (1 : ℝ) / 9007199254740992) * (3 / 10 ^ 7 + 1 / 10 ^ 10 + 2 / 10 ^ 7) + 1 / 9007199254740992 + 1 / 10 ^ 30 ≤
      1 / 10 ^ 6 := by norm_num
  linarith

/-- **C84** (double precision).  With up to `2^26` items and a thousand million recommendations the four values have six correct
digits. -/
theorem C84_double (recommend : List Nat → Except Err (List (List Int))) (b : Nat)
    (hb : 1 ≤ b) (K items : Nat) (hK : 1 ≤ K) (hi : items ≤ 2 ^ 26) (test : SpRows ℝ) (rank : Nat → List Int)
    (hne : (Spec.evaluated test).Nonempty) (hN : (Spec.evaluated test).card * K ≤ 10 ^ 9)
    (htest : ∀ u ∈ Spec.evaluated test, Spec.ValidTest items (test.getD u []))
    (hrank : ∀ u ∈ Spec.evaluated test, Spec.ValidRanking items K (rank u))
    (hrec : ∀ us : List Nat, us ≠ [] → (∀ u ∈ us, u ∈ Spec.evaluated test) →
      recommend us = .ok (us.map rank)) :
    ∃ m e, roundRankingMetrics (ieee 53 (-1074)) recommend b K items (roundDiscount (ieee 53 (-1074))) test = .ok m ∧
      rankingMetrics recommend b K items (roundDiscount (ieee 53 (-1074))) test = .ok e ∧
      |m.precision - e.precision| ≤ 1 / 10 ^ 6 ∧ |m.map - e.map| ≤ 1 / 10 ^ 6 ∧ |m.ndcg - e.ndcg| ≤ 1 / 10 ^ 6 ∧
      |m.auc - e.auc| ≤ 1 / 10 ^ 6 := by
  have hr : (ieee 53 (-1074) : Rounding ℝ).Orderly (2 ^ 53) := double_orderly
  have hKi : K ≤ items := by
    obtain ⟨u0, hu0⟩ := hne
    have hv := hrank u0 hu0
    have h1 : (rank u0).toFinset ⊆ Spec.allItems items := fun x hx => hv.existing x (List.mem_toFinset.mp hx)
    have h2 := card_le_card h1
    rw [List.toFinset_card_of_nodup hv.distinct, hv.length, allItems_card] at h2
    exact h2
  have hcard : 1 ≤ (Spec.evaluated test).card := card_pos.mpr hne
  have hii : 2 * (items * items) ≤ 2 ^ 53 := by
    have := Nat.mul_le_mul hi hi
    omega
  obtain ⟨hη0, hη⟩ := double_tiny
  have hKr : (K : ℝ) ≤ 67108864 := by
    have : K ≤ 67108864 := hKi.trans hi
    exact_mod_cast this
  obtain ⟨m, em, h1, h2, h3, h4⟩ := C84_error (ieee 53 (-1074)) _ hr recommend b hb K items hK hii _
    (C84_discounts K (hKi.trans hi)) (lt_of_le_of_lt (ideal_double hKr) (by norm_num)) test rank hne (by omega) htest hrank hrec
  have ee := C34_metrics recommend b hb K items hK (roundDiscount (ieee 53 (-1074))) test rank hne htest hrank hrec
  have hN1 : (1 : ℝ) ≤ ((Spec.evaluated test).card : ℝ) := by exact_mod_cast hcard
  have hNK : (((Spec.evaluated test).card * K : Nat) : ℝ) ≤ 10 ^ 9 := by exact_mod_cast hN
  have hNr : ((Spec.evaluated test).card : ℝ) ≤ 10 ^ 9 := by
    have : (Spec.evaluated test).card ≤ 10 ^ 9 := (Nat.le_mul_of_pos_right _ hK).trans hN
    exact_mod_cast this
  have h53 : (ieee 53 (-1074) : Rounding ℝ).u = 1 / 9007199254740992 := by
    change (2 : ℝ) ^ (-53 : Int) = _
    norm_num
  have hηe : (ieee 53 (-1074) : Rounding ℝ).η ≤ 1 / 10 ^ 30 := hη
  refine ⟨m, _, em, ee, ?_, h2.trans ?_, h3.trans (ndcg_double hKr hN1 hNK), h4.trans ?_⟩
  · rw [h1]
    have hb0 : (0 : ℝ) ≤ ∑ u ∈ Spec.evaluated test, (Spec.bestHits (Spec.relevant (test.getD u [])) K : ℝ) :=
      sum_nonneg fun _ _ => Nat.cast_nonneg _
    refine ((ieee 53 (-1074) : Rounding ℝ).err_le (b := 1) (div_nonneg (sum_nonneg fun _ _ => Nat.cast_nonneg _) hb0)
      (div_le_one_of_le₀ (sum_le_sum fun u hu => by exact_mod_cast hits_le_best _ (hrank u hu)) hb0)).trans ?_
    rw [h53]
    have : (1 : ℝ) / 9007199254740992 * 1 + 1 / 10 ^ 30 ≤ 1 / 10 ^ 6 := by norm_num
    linarith
  · rw [h53]
    have k1 : (1 : ℝ) / 9007199254740992 * (K + (Spec.evaluated test).card + 8) / 2 ≤
        1 / 9007199254740992 * (67108864 + 10 ^ 9 + 8) / 2 := by linarith
    have k2 : (1 : ℝ) / 9007199254740992 * (67108864 + 10 ^ 9 + 8) / 2 + 5 * (1 / 10 ^ 30) ≤ 1 / 10 ^ 6 := by norm_num
    linarith
  · rw [h53]
    have k1 : (1 : ℝ) / 9007199254740992 * ((Spec.evaluated test).card + 5) / 2 ≤ 1 / 9007199254740992 * (10 ^ 9 + 5) / 2 := by linarith
    have k2 : (1 : ℝ) / 9007199254740992 * (10 ^ 9 + 5) / 2 + 3 * (1 / 10 ^ 30) ≤ 1 / 10 ^ 6 := by norm_num
    linarith

/-! ## NDCG above one -/

/-- The first terms of `-log (1 - x)`. -/
def logTerms (x : ℚ) : Nat → ℚ
  | 0 => 0
  | n + 1 => logTerms x n + x ^ (n + 1) / (n + 1)

theorem logTerms_cast (x : ℚ) : ∀ n, ((logTerms x n : ℚ) : ℝ) = ∑ i ∈ range n, (x : ℝ) ^ (i + 1) / (i + 1)
  | 0 => by simp [logTerms]
  | n + 1 => by
    rw [logTerms, sum_range_succ, ← logTerms_cast x n]
    push_cast
    rfl

/-- Enough digits of the logarithm of 3 to base 2. -/
theorem log2_three : ((15849625007211561814 / 10 ^ 19 : ℚ) : ℝ) ≤ Real.logb 2 3 ∧ Real.logb 2 3 ≤ ((15849625007211561815 / 10 ^ 19 : ℚ) : ℝ) := by
  have h2 := Real.abs_log_sub_add_sum_range_le (x := ((1 / 2 : ℚ) : ℝ)) (by norm_num [abs_lt]) 80
  have h3 := Real.abs_log_sub_add_sum_range_le (x := ((1 / 3 : ℚ) : ℝ)) (by norm_num [abs_lt]) 50
  rw [← logTerms_cast] at h2 h3
  have e2 : Real.log (1 - ((1 / 2 : ℚ) : ℝ)) = -Real.log 2 := by
    rw [← Real.log_inv]; norm_num
  have e3 : Real.log (1 - ((1 / 3 : ℚ) : ℝ)) = Real.log 2 - Real.log 3 := by
    rw [← Real.log_div (by norm_num) (by norm_num)]; norm_num
  rw [e2] at h2
  rw [e3] at h3
  have b2 : |((1 / 2 : ℚ) : ℝ)| ^ (80 + 1) / (1 - |((1 / 2 : ℚ) : ℝ)|) = ((1 / 2 ^ 80 : ℚ) : ℝ) := by
    rw [abs_of_pos (by norm_num)]; norm_num
  have b3 : |((1 / 3 : ℚ) : ℝ)| ^ (50 + 1) / (1 - |((1 / 3 : ℚ) : ℝ)|) = ((1 / (2 * 3 ^ 50) : ℚ) : ℝ) := by
    rw [abs_of_pos (by norm_num)]; norm_num
  rw [b2] at h2
  rw [b3] at h3
  have hl2 : 0 < Real.log 2 := Real.log_pos (by norm_num)
  have q1 : (15849625007211561814 / 10 ^ 19 : ℚ) * (logTerms (1 / 2) 80 + 1 / 2 ^ 80) ≤
      logTerms (1 / 2) 80 - 1 / 2 ^ 80 + (logTerms (1 / 3) 50 - 1 / (2 * 3 ^ 50)) := by decide +kernel
  have q2 : logTerms (1 / 2) 80 + 1 / 2 ^ 80 + (logTerms (1 / 3) 50 + 1 / (2 * 3 ^ 50)) ≤
      (15849625007211561815 / 10 ^ 19 : ℚ) * (logTerms (1 / 2) 80 - 1 / 2 ^ 80) := by decide +kernel
  have q1' := (Rat.cast_le (K := ℝ)).mpr q1
  have q2' := (Rat.cast_le (K := ℝ)).mpr q2
  rw [Rat.cast_mul, Rat.cast_add, Rat.cast_add, Rat.cast_sub, Rat.cast_sub] at q1'
  rw [Rat.cast_mul, Rat.cast_add, Rat.cast_add, Rat.cast_add, Rat.cast_sub] at q2'
  have p1 : (0 : ℝ) ≤ ((15849625007211561814 / 10 ^ 19 : ℚ) : ℝ) := by norm_num
  have p2 : (0 : ℝ) ≤ ((15849625007211561815 / 10 ^ 19 : ℚ) : ℝ) := by norm_num
  unfold Real.logb
  rw [le_div_iff₀ hl2, div_le_iff₀ hl2]
  generalize ((15849625007211561814 / 10 ^ 19 : ℚ) : ℝ) = a at *
  generalize ((15849625007211561815 / 10 ^ 19 : ℚ) : ℝ) = b at *
  generalize ((logTerms (1 / 2) 80 : ℚ) : ℝ) = s at *
  generalize ((logTerms (1 / 3) 50 : ℚ) : ℝ) = t at *
  generalize ((1 / 2 ^ 80 : ℚ) : ℝ) = ε at *
  generalize ((1 / (2 * 3 ^ 50) : ℚ) : ℝ) = ε' at *
  rw [abs_le] at h2 h3
  constructor
  · have : a * Real.log 2 ≤ a * (s + ε) := mul_le_mul_of_nonneg_left (by linarith [h2.1, h2.2]) p1
    linarith [h2.1, h2.2, h3.1, h3.2]
  · have : b * (s - ε) ≤ b * Real.log 2 := mul_le_mul_of_nonneg_left (by linarith [h2.1, h2.2]) p2
    linarith [h2.1, h2.2, h3.1, h3.2]

theorem double_cast {q v : ℚ} {t k : Nat} (h : fastDouble q t k = some v) : (ieee 53 (-1074) : Rounding ℝ).rnd (q : ℝ) = (v : ℝ) := by
  rw [← fastDouble_eq h]
  exact ieeeBits_cast _ _ _

/-- A sum of rounded products in double precision, for numbers below `2^13`. -/
def fastTotal (s : ℚ) : List (ℚ × ℚ) → Option ℚ
  | [] => some s
  | p :: ps =>
    match fastDouble (p.1 * p.2) 64 40 with
    | none => none
    | some v =>
      match fastDouble (s + v) 64 40 with
      | none => none
      | some t => fastTotal t ps

theorem fastTotal_eq : ∀ (ps : List (ℚ × ℚ)) (s v : ℚ), fastTotal s ps = some v →
    (ps.map fun p => (ieee 53 (-1074)).rnd (p.1 * p.2)).foldl (fun s v => (ieee 53 (-1074) : Rounding ℚ).rnd (s + v)) s = v
  | [], s, v, h => by cases h; rfl
  | p :: ps, s, v, h => by
    unfold fastTotal at h
    cases h1 : fastDouble (p.1 * p.2) 64 40 with
    | none => rw [h1] at h; cases h
    | some a =>
      rw [h1] at h
      simp only at h
      cases h2 : fastDouble (s + a) 64 40 with
      | none => rw [h2] at h; cases h
      | some b =>
        rw [h2] at h
        simp only at h
        rw [List.map_cons, List.foldl_cons]
        have e1 : (ieee 53 (-1074) : Rounding ℚ).rnd (p.1 * p.2) = a := fastDouble_eq h1
        have e2 : (ieee 53 (-1074) : Rounding ℚ).rnd (s + a) = b := fastDouble_eq h2
        rw [e1, e2]
        exact fastTotal_eq ps b v h

/-- The three discounts for `K = 3`. -/
theorem three_discounts : roundDiscount (ieee 53 (-1074)) 0 = ((1 : ℚ) : ℝ) ∧
    roundDiscount (ieee 53 (-1074)) 1 = ((2841455003081375 / 4503599627370496 : ℚ) : ℝ) ∧
    roundDiscount (ieee 53 (-1074)) 2 = ((1 / 2 : ℚ) : ℝ) := by
  have hr : (ieee 53 (-1074) : Rounding ℝ).Orderly (2 ^ 53) := double_orderly
  refine ⟨?_, ?_, ?_⟩
  · rw [(C84_discounts 3 (by norm_num)).first]; norm_num
  · unfold roundDiscount
    have hl : (ieee 53 (-1074) : Rounding ℝ).rnd (Real.logb 2 (((1 : Nat) : ℝ) + 2)) = ((892254565955501 / 562949953421312 : ℚ) : ℝ) := by
      have h1 : (ieee 53 (-1074) : Rounding ℝ).rnd ((15849625007211561814 / 10 ^ 19 : ℚ) : ℝ) = ((892254565955501 / 562949953421312 : ℚ) : ℝ) :=
        double_cast (t := 64) (k := 40) (by decide +kernel)
      have h2 : (ieee 53 (-1074) : Rounding ℝ).rnd ((15849625007211561815 / 10 ^ 19 : ℚ) : ℝ) = ((892254565955501 / 562949953421312 : ℚ) : ℝ) :=
        double_cast (t := 64) (k := 40) (by decide +kernel)
      rw [show ((1 : Nat) : ℝ) + 2 = 3 by norm_num]
      refine le_antisymm ?_ ?_
      · rw [← h2]; exact hr.mono log2_three.2
      · rw [← h1]; exact hr.mono log2_three.1
    rw [hl]
    have : (1 : ℝ) / ((892254565955501 / 562949953421312 : ℚ) : ℝ) = ((562949953421312 / 892254565955501 : ℚ) : ℝ) := by norm_num
    rw [this]
    exact double_cast (t := 64) (k := 40) (by decide +kernel)
  · unfold roundDiscount
    have hl : Real.logb 2 (((2 : Nat) : ℝ) + 2) = ((2 : ℚ) : ℝ) := by
      rw [show ((2 : Nat) : ℝ) + 2 = 2 ^ (2 : Nat) by norm_num, Real.logb_pow, Real.logb_self_eq_one (by norm_num)]
      norm_num
    rw [hl, double_cast (v := 2) (t := 64) (k := 40) (by decide +kernel)]
    have : (1 : ℝ) / ((2 : ℚ) : ℝ) = ((1 / 2 : ℚ) : ℝ) := by norm_num
    rw [this]
    exact double_cast (t := 64) (k := 40) (by decide +kernel)

/-- Two users with one relevant item, one user with three. -/
def threeUsers : SpRows ℝ := [[(0, 1)], [(0, 1)], [(0, 1), (1, 1), (2, 1)]]

/-- Everybody is recommended the items 0, 1 and 2. -/
def threeRecommend (us : List Nat) : Except Err (List (List Int)) := .ok (us.map fun _ => [0, 1, 2])

theorem threeUsers_evaluated : Spec.evaluated threeUsers = {0, 1, 2} := by
  unfold Spec.evaluated threeUsers
  ext u
  simp only [mem_filter, mem_range, List.length_cons, List.length_nil, mem_insert, mem_singleton]
  constructor
  · rintro ⟨h, -⟩; omega
  · rintro (rfl | rfl | rfl) <;> simp

theorem threeUsers_test : testUsers threeUsers = [0, 1, 2] := by
  unfold testUsers threeUsers
  simp [List.range_succ]

theorem threeUsers_relevant : Spec.relevant (threeUsers.getD 0 []) = {0} ∧ Spec.relevant (threeUsers.getD 1 []) = {0} ∧
    Spec.relevant (threeUsers.getD 2 []) = {0, 1, 2} := by
  refine ⟨?_, ?_, ?_⟩ <;> · ext x; simp [Spec.relevant, threeUsers]

theorem three_ranking : Spec.ValidRanking 4 3 [0, 1, 2] := by
  refine ⟨rfl, by decide, ?_⟩
  intro x hx
  simp only [List.mem_cons, List.not_mem_nil, or_false] at hx
  refine (mem_allItems _ _).mpr ?_
  rcases hx with rfl | rfl | rfl
  · exact ⟨0, by omega, rfl⟩
  · exact ⟨1, by omega, rfl⟩
  · exact ⟨2, by omega, rfl⟩

theorem threeUsers_valid : ∀ u ∈ Spec.evaluated threeUsers, Spec.ValidTest 4 (threeUsers.getD u []) := by
  obtain ⟨r0, r1, r2⟩ := threeUsers_relevant
  intro u hu
  rw [threeUsers_evaluated] at hu
  simp only [mem_insert, mem_singleton] at hu
  rcases hu with rfl | rfl | rfl
  · exact ⟨by simp [threeUsers], by rw [r0]; decide⟩
  · exact ⟨by simp [threeUsers], by rw [r1]; decide⟩
  · exact ⟨by simp [threeUsers], by rw [r2]; decide⟩

theorem threeUsers_perfect : ∀ u ∈ Spec.evaluated threeUsers, Spec.Perfect (Spec.relevant (threeUsers.getD u [])) 3 [0, 1, 2] := by
  obtain ⟨r0, r1, r2⟩ := threeUsers_relevant
  intro u hu
  rw [threeUsers_evaluated] at hu
  simp only [mem_insert, mem_singleton] at hu
  rcases hu with rfl | rfl | rfl
  · rw [r0]; intro i hi
    have : i < 1 := hi
    interval_cases i; simp
  · rw [r1]; intro i hi
    have : i < 1 := hi
    interval_cases i; simp
  · rw [r2]; intro i hi
    have : i < 3 := hi
    interval_cases i <;> simp

/-- The hypotheses of `C84_perfect` and `C84_double` for three users. -/
example : (∃ m, roundRankingMetrics (ieee 53 (-1074)) threeRecommend 2 3 4 (roundDiscount (ieee 53 (-1074))) threeUsers = .ok m ∧
      m.precision = 1 ∧ m.map = 1) ∧
    ∃ m e, roundRankingMetrics (ieee 53 (-1074)) threeRecommend 2 3 4 (roundDiscount (ieee 53 (-1074))) threeUsers = .ok m ∧
      rankingMetrics threeRecommend 2 3 4 (roundDiscount (ieee 53 (-1074))) threeUsers = .ok e ∧
      |m.precision - e.precision| ≤ 1 / 10 ^ 6 ∧ |m.map - e.map| ≤ 1 / 10 ^ 6 ∧ |m.ndcg - e.ndcg| ≤ 1 / 10 ^ 6 ∧
      |m.auc - e.auc| ≤ 1 / 10 ^ 6 :=
  ⟨C84_perfect _ _ (double_orderly (R := ℝ)) _ 2 (by omega) 3 4 (by omega) (by norm_num) _ _ (fun _ => [0, 1, 2])
      ⟨0, by rw [threeUsers_evaluated]; simp⟩ (by rw [threeUsers_evaluated]; decide) threeUsers_valid (fun _ _ => three_ranking)
      threeUsers_perfect (fun _ _ _ => rfl),
    C84_double _ 2 (by omega) 3 4 (by omega) (by norm_num) _ (fun _ => [0, 1, 2]) ⟨0, by rw [threeUsers_evaluated]; simp⟩
      (by rw [threeUsers_evaluated]; decide) threeUsers_valid (fun _ _ => three_ranking) (fun _ _ _ => rfl)⟩

/-- The order of the users matters: the terms of NDCG go into one sum.  `C84_range` for the same call. -/
example : ∃ m, roundRankingMetrics (ieee 53 (-1074)) threeRecommend 1 3 4 (roundDiscount (ieee 53 (-1074))) threeUsers = .ok m ∧
    (0 ≤ m.precision ∧ m.precision ≤ 1) ∧ (0 ≤ m.map ∧ m.map ≤ 1) ∧ 0 ≤ m.ndcg ∧ 0 ≤ m.auc ∧ m.auc ≤ 1 :=
  C84_range _ _ (double_orderly (R := ℝ)) _ 1 (by omega) 3 4 (by omega) (by norm_num) _
    (fun i hi => ((C84_discounts 3 (by norm_num)).pos i hi).le) _ (fun _ => [0, 1, 2])
    ⟨0, by rw [threeUsers_evaluated]; simp⟩ (by rw [threeUsers_evaluated]; decide) threeUsers_valid (fun _ _ => three_ranking)
    (fun _ _ _ => rfl)

/-- **C84** (violated: NDCG exceeds 1).  Three users, four items, `K = 3`, IEEE double precision with correctly rounded logarithms:
the recommendations of every user begin with all relevant items, and NDCG comes out as `1 + 2^-52`. -/
theorem C84_ndcg_violated :
    (∀ u ∈ Spec.evaluated threeUsers, Spec.ValidTest 4 (threeUsers.getD u []) ∧ Spec.ValidRanking 4 3 [0, 1, 2] ∧
      Spec.Perfect (Spec.relevant (threeUsers.getD u [])) 3 [0, 1, 2]) ∧
    ∃ m, roundRankingMetrics (ieee 53 (-1074)) threeRecommend metricsBatchSize 3 4 (roundDiscount (ieee 53 (-1074))) threeUsers = .ok m ∧
      m.ndcg = 1 + 1 / 2 ^ 52 := by
  obtain ⟨r0, r1, r2⟩ := threeUsers_relevant
  refine ⟨fun u hu => ⟨threeUsers_valid u hu, three_ranking, threeUsers_perfect u hu⟩, ?_⟩
  obtain ⟨s, hs, e, -, -⟩ := roundRanking_ok (ieee 53 (-1074)) (double_orderly (R := ℝ)) threeRecommend metricsBatchSize
    (by decide) 3 4 (by omega) (by norm_num) (roundDiscount (ieee 53 (-1074))) threeUsers (fun _ => [0, 1, 2])
    ⟨0, by rw [threeUsers_evaluated]; simp⟩ (by rw [threeUsers_evaluated]; decide) threeUsers_valid (fun _ _ => three_ranking)
    (fun us _ _ => rfl)
  refine ⟨_, e, ?_⟩
  obtain ⟨d0, d1, d2⟩ := three_discounts
  have i1 : roundCgSum (ieee 53 (-1074)) (roundDiscount (ieee 53 (-1074))) 1 = ((1 : ℚ) : ℝ) := d0
  have i3 : roundCgSum (ieee 53 (-1074)) (roundDiscount (ieee 53 (-1074))) 3 = ((299901701379285 / 140737488355328 : ℚ) : ℝ) := by
    change (ieee 53 (-1074) : Rounding ℝ).rnd ((ieee 53 (-1074) : Rounding ℝ).rnd (roundDiscount (ieee 53 (-1074)) 0 +
      roundDiscount (ieee 53 (-1074)) 1) + roundDiscount (ieee 53 (-1074)) 2) = _
    rw [d0, d1, d2, ← Rat.cast_add,
      double_cast (v := 7345054630451871 / 4503599627370496) (t := 64) (k := 40) (by decide +kernel), ← Rat.cast_add]
    exact double_cast (t := 64) (k := 40) (by decide +kernel)
  have hp1 : ndcgPairs (ieee 53 (-1074)) 3 (roundDiscount (ieee 53 (-1074))) {0} [0, 1, 2] = [(((1 : ℚ) : ℝ), ((1 : ℚ) : ℝ))] := by
    unfold ndcgPairs
    rw [show hitPlaces {0} [0, 1, 2] = [0] by decide, show Spec.bestHits {0} 3 = 1 by decide, i1]
    simp [d0]
  have hp3 : ndcgPairs (ieee 53 (-1074)) 3 (roundDiscount (ieee 53 (-1074))) {0, 1, 2} [0, 1, 2] =
      ([(1, 140737488355328 / 299901701379285), (2841455003081375 / 4503599627370496, 140737488355328 / 299901701379285),
        (1 / 2, 140737488355328 / 299901701379285)] : List (ℚ × ℚ)).map fun q => ((q.1 : ℝ), (q.2 : ℝ)) := by
    unfold ndcgPairs
    rw [show hitPlaces {0, 1, 2} [0, 1, 2] = [0, 1, 2] by decide, show Spec.bestHits {0, 1, 2} 3 = 3 by decide, i3]
    simp only [List.map_cons, List.map_nil, d0, d1, d2]
    have : (1 : ℝ) / ((299901701379285 / 140737488355328 : ℚ) : ℝ) = ((140737488355328 / 299901701379285 : ℚ) : ℝ) := by norm_num
    rw [this]
  have hn := hs.ndcg
  rw [threeUsers_test] at hn
  simp only [List.flatMap_cons, List.flatMap_nil, r0, r1, r2, hp1, hp3, List.append_nil] at hn
  have hcast : s.ndcg = ((6755399441055745 / 2251799813685248 : ℚ) : ℝ) := by
    have e1 : fastTotal 0 [(1, 1), (1, 1), (1, 140737488355328 / 299901701379285),
        (2841455003081375 / 4503599627370496, 140737488355328 / 299901701379285), (1 / 2, 140737488355328 / 299901701379285)] =
        some (6755399441055745 / 2251799813685248) := by decide +kernel
    rw [hn, ← fastTotal_eq _ _ _ e1]
    exact roundSum_cast 53 (-1074) [(1, 1), (1, 1), (1, 140737488355328 / 299901701379285),
        (2841455003081375 / 4503599627370496, 140737488355328 / 299901701379285), (1 / 2, 140737488355328 / 299901701379285)]
  simp only
  rw [hcast, hs.total, threeUsers_test]
  have e3 : ((6755399441055745 / 2251799813685248 : ℚ) : ℝ) / (([0, 1, 2] : List Nat).length : ℝ) =
      ((6755399441055745 / 2251799813685248 / 3 : ℚ) : ℝ) := by norm_num
  rw [e3, double_cast (v := 4503599627370497 / 4503599627370496) (t := 64) (k := 40) (by decide +kernel)]
  norm_num

end Implicit
