import Verif.Model.RoundMetrics
import Verif.Spec.ApproxMetrics
import Verif.Props.C33
import Verif.Lemmas.RoundKnn
/-!
# Lemmas: ranking metrics in floating point
-/

set_option linter.unusedSectionVars false

namespace Implicit

open Finset

/-- Floating point as the metrics need it: rounding is monotone and halves of integers up to `B` are exact. -/
structure Rounding.Orderly {R : Type} [LinearOrder R] [Field R] (r : Rounding R) (B : Nat) : Prop where
  mono : Monotone r.rnd
  exact : ∀ k : Int, k.natAbs ≤ B → r.rnd ((k : R) / 2) = (k : R) / 2

variable {R : Type} [LinearOrder R] [Field R] [IsStrictOrderedRing R]

theorem Rounding.Orderly.half {r : Rounding R} {B : Nat} (h : r.Orderly B) {n : Nat} (hn : n ≤ B) :
    r.rnd ((n : R) / 2) = (n : R) / 2 := by
  have := h.exact (n : Int) (by simpa using hn)
  simpa using this

theorem Rounding.Orderly.nat {r : Rounding R} {B : Nat} (h : r.Orderly B) {n : Nat} (hn : 2 * n ≤ B) :
    r.rnd (n : R) = (n : R) := by
  have := h.half hn
  rwa [Nat.cast_mul, Nat.cast_ofNat, mul_div_cancel_left₀ _ (two_ne_zero)] at this

theorem Rounding.Orderly.zero {r : Rounding R} {B : Nat} (h : r.Orderly B) : r.rnd 0 = 0 := by
  have := h.nat (n := 0) (by omega)
  simpa using this

theorem Rounding.Orderly.nonneg {r : Rounding R} {B : Nat} (h : r.Orderly B) {x : R} (hx : 0 ≤ x) : 0 ≤ r.rnd x := by
  rw [← h.zero]; exact h.mono hx

theorem Rounding.Orderly.le_nat {r : Rounding R} {B : Nat} (h : r.Orderly B) {x : R} {n : Nat} (hn : 2 * n ≤ B) (hx : x ≤ n) :
    r.rnd x ≤ n := by
  rw [← h.nat hn]; exact h.mono hx

/-- The error of a rounding in terms of an upper bound. -/
theorem Rounding.err_le (r : Rounding R) {x b : R} (h0 : 0 ≤ x) (hb : x ≤ b) : |r.rnd x - x| ≤ r.u * b + r.η := by
  refine (r.err x).trans ?_
  rw [abs_of_nonneg h0]
  have := mul_le_mul_of_nonneg_left hb r.u_nonneg
  linarith

/-- The places of the recommended list that hold a relevant item. -/
def hitPlaces (rel : Finset Int) (l : List Int) : List Nat := (l.zipIdx.filter fun p => decide (p.1 ∈ rel)).map Prod.snd

theorem hitPlaces_snoc (rel : Finset Int) (l : List Int) (x : Int) :
    hitPlaces rel (l ++ [x]) = hitPlaces rel l ++ if x ∈ rel then [l.length] else [] := by
  unfold hitPlaces
  rw [List.zipIdx_append, List.filter_append, List.map_append]
  congr 1
  by_cases hx : x ∈ rel <;> simp [hx]

theorem hitPlaces_length (rel : Finset Int) (l : List Int) : (hitPlaces rel l).length = Spec.hits rel l := by
  induction l using List.reverseRecOn with
  | nil => rfl
  | append_singleton l x ih =>
    rw [hitPlaces_snoc, hits_snoc, List.length_append, ih]
    by_cases hx : x ∈ rel <;> simp [hx]

theorem hitPlaces_sum (rel : Finset Int) (l : List Int) (v : Nat → R) : ((hitPlaces rel l).map v).sum = Spec.sumHits rel l v := by
  induction l using List.reverseRecOn with
  | nil => simp [hitPlaces, Spec.sumHits]
  | append_singleton l x ih =>
    rw [hitPlaces_snoc, sumHits_snoc rel l x v v fun _ _ => rfl, List.map_append, List.sum_append, ih]
    by_cases hx : x ∈ rel <;> simp [hx]

/-- Error of `n` terms of at most 1 added up, each of them off by `e`. -/
def unitError (u η e : R) (n : Nat) : R := n * (e + η) + u * (n * (n + 1) / 2)

theorem unitError_succ (u η e : R) (n : Nat) : unitError u η e (n + 1) = unitError u η e n + e + (u * ((n + 1 : Nat) : R) + η) := by
  unfold unitError
  push_cast
  ring

/-- The accumulators after a prefix of the recommended ids: the whole numbers are exact. -/
theorem roundMetrics_scan (r : Rounding R) {B : Nat} (hr : r.Orderly B) (likes : List Nat) (cg : Nat → R) (idcg : R)
    (rel : Finset Int) (hrel : ∀ x : Int, (likes.any fun c => (c : Int) == x) = true ↔ x ∈ rel) (s : MetricSums R) (m : Nat)
    (hs : s.relevant = m) (l : List Int) (hl : 2 * (m + l.length) ≤ B) (hll : l.length * l.length ≤ B) :
    ∃ (a : Nat) (ap : R), l.zipIdx.foldl (roundMetricsStep r likes cg idcg) (s, ⟨0, 0, 0, 0⟩) =
      ({ s with
          relevant := ((m + Spec.hits rel l : Nat) : R)
          ndcg := (hitPlaces rel l).foldl (fun t i => r.rnd (t + r.rnd (cg i / idcg))) s.ndcg },
       ⟨(Spec.hits rel l : R), (l.length : R) - (Spec.hits rel l : R), ap, (a : R)⟩) ∧
      (l.zipIdx.foldl (metricsStep likes cg idcg) (s, ⟨0, 0, 0, 0⟩)).2.auc = (a : R) ∧
      a ≤ Spec.hits rel l * (l.length - Spec.hits rel l) ∧
      0 ≤ ap ∧ ap ≤ Spec.hits rel l ∧
      |ap - Spec.sumHits rel l fun i => Spec.precisionAt rel l (i + 1)| ≤ unitError r.u r.η (r.u + r.η) (Spec.hits rel l) ∧
      ((∀ j ≤ Spec.hits rel l, Spec.hits rel (l.take j) = j) → ap = Spec.hits rel l) := by
  induction l using List.reverseRecOn with
  | nil =>
    refine ⟨0, 0, ?_, ?_, by simp, le_refl _, by simp, ?_, fun _ => by simp [Spec.hits]⟩
    · simp [Spec.hits, hitPlaces, hs.symm]
    · simp
    · simp [Spec.sumHits, unitError, Spec.hits]
  | append_singleton l x ih =>
    rw [List.length_append, List.length_singleton] at hl hll
    have hlen := hits_le_length rel l
    obtain ⟨a, ap, h1, h2, h3, h4, h5, h6, h7⟩ := ih (by omega) (by nlinarith)
    obtain ⟨a', g1, -⟩ := metrics_scan likes cg idcg rel hrel s l
    rw [List.zipIdx_append, List.foldl_append, List.foldl_append, h1]
    rw [g1] at h2 ⊢
    simp only at h2
    simp only [List.zipIdx_cons, List.zipIdx_nil, List.foldl_cons, List.foldl_nil, Nat.zero_add]
    unfold roundMetricsStep metricsStep
    have hap : (Spec.sumHits rel (l ++ [x]) fun i => Spec.precisionAt rel (l ++ [x]) (i + 1) : R) =
        (Spec.sumHits rel l fun i => Spec.precisionAt rel l (i + 1)) +
          if x ∈ rel then Spec.precisionAt rel (l ++ [x]) (l.length + 1) else 0 :=
      sumHits_snoc rel l x _ _ fun i hi => precisionAt_snoc rel l x i hi
    by_cases hx : x ∈ rel
    · rw [if_pos ((hrel x).mpr hx), if_pos ((hrel x).mpr hx)]
      simp only [hitPlaces_snoc, hits_snoc, if_pos hx, List.foldl_append, List.foldl_cons, List.foldl_nil, List.length_append,
        List.length_singleton]
      have hhit : r.rnd ((Spec.hits rel l : R) + 1) = ((Spec.hits rel l + 1 : Nat) : R) := by
        have := hr.nat (n := Spec.hits rel l + 1) (by omega)
        rw [← this]; push_cast; rfl
      have hrelv : r.rnd (((m + Spec.hits rel l : Nat) : R) + 1) = ((m + (Spec.hits rel l + 1) : Nat) : R) := by
        have := hr.nat (n := m + (Spec.hits rel l + 1)) (by omega)
        rw [← this]; push_cast; ring_nf
      have hpos : (0 : R) < (l.length : R) + 1 := by positivity
      have hq0 : 0 ≤ ((Spec.hits rel l + 1 : Nat) : R) / ((l.length : R) + 1) := by positivity
      have hq1 : ((Spec.hits rel l + 1 : Nat) : R) / ((l.length : R) + 1) ≤ ((1 : Nat) : R) := by
        rw [Nat.cast_one, div_le_one hpos]
        push_cast
        have : (Spec.hits rel l : R) ≤ l.length := by exact_mod_cast hlen
        linarith
      have hv0 := hr.nonneg hq0
      have hv1 := hr.le_nat (n := 1) (by omega) hq1
      have hsum1 : ap + r.rnd (((Spec.hits rel l + 1 : Nat) : R) / ((l.length : R) + 1)) ≤ ((Spec.hits rel l + 1 : Nat) : R) := by
        push_cast at hv1 ⊢
        linarith
      refine ⟨a, _, ?_, h2, h3.trans (Nat.mul_le_mul (by omega) (by omega)), hr.nonneg (add_nonneg h4 hv0),
        hr.le_nat (by omega) hsum1, ?_, ?_⟩
      · rw [hhit, hrelv]
        congr 2
        push_cast
        ring
      · rw [hap, if_pos hx, unitError_succ]
        have e1 := r.err_le hq0 hq1
        have e2 := r.err_le (add_nonneg h4 hv0) hsum1
        have e3 : (Spec.precisionAt rel (l ++ [x]) (l.length + 1) : R) =
            ((Spec.hits rel l + 1 : Nat) : R) / ((l.length : R) + 1) := by
          unfold Spec.precisionAt
          rw [List.take_of_length_le (by simp), hits_snoc, if_pos hx]
          push_cast
          rfl
        rw [e3]
        rw [Nat.cast_one] at e1
        rw [abs_le] at *
        constructor <;> linarith [e1.1, e1.2, e2.1, e2.2, h6.1, h6.2]
      · intro hp
        have hfull : Spec.hits rel l = l.length := by
          by_contra hne
          have := hp (Spec.hits rel l + 1) (le_refl _)
          rw [List.take_append_of_le_length (by omega)] at this
          have h' : Spec.hits rel (l.take (Spec.hits rel l + 1)) ≤ Spec.hits rel l :=
            List.Sublist.countP_le (List.take_sublist _ _)
          omega
        have hp' := h7 fun j hj => by
          have := hp j (by omega)
          rwa [List.take_append_of_le_length (by omega)] at this
        have hone : r.rnd 1 = 1 := by
          have := hr.nat (n := 1) (by omega)
          simpa using this
        rw [hp', hfull]
        have : ((l.length + 1 : Nat) : R) / ((l.length : R) + 1) = 1 := by
          push_cast; exact div_self hpos.ne'
        rw [this, hone, ← hfull, hhit]
    · rw [if_neg (fun h => hx ((hrel x).mp h)), if_neg (fun h => hx ((hrel x).mp h))]
      simp only [hitPlaces_snoc, hits_snoc, if_neg hx, List.append_nil, List.length_append, List.length_singleton, add_zero]
      have hmul : a + Spec.hits rel l ≤ Spec.hits rel l * (l.length + 1 - Spec.hits rel l) := by
        rw [show l.length + 1 - Spec.hits rel l = (l.length - Spec.hits rel l) + 1 by omega, Nat.mul_add, Nat.mul_one]
        omega
      have hB : 2 * (a + Spec.hits rel l) ≤ B := by
        have hk : 4 * (Spec.hits rel l * (l.length + 1 - Spec.hits rel l)) ≤ (l.length + 1) * (l.length + 1) := by
          obtain ⟨d, hd⟩ := Nat.exists_eq_add_of_le (show Spec.hits rel l ≤ l.length + 1 by omega)
          rw [hd, Nat.add_sub_cancel_left]
          zify
          nlinarith [sq_nonneg ((Spec.hits rel l : Int) - d)]
        omega
      have hauc : r.rnd ((a : R) + (Spec.hits rel l : R)) = ((a + Spec.hits rel l : Nat) : R) := by
        have := hr.nat hB
        rw [← this]; push_cast; rfl
      have hmiss : r.rnd ((l.length : R) - (Spec.hits rel l : R) + 1) = ((l.length + 1 : Nat) : R) - (Spec.hits rel l : R) := by
        have := hr.nat (n := l.length + 1 - Spec.hits rel l) (by omega)
        rw [Nat.cast_sub (by omega)] at this
        rw [← this]; push_cast; ring_nf
      refine ⟨a + Spec.hits rel l, ap, ?_, ?_, hmul, h4, h5, ?_, ?_⟩
      · rw [hauc, hmiss]
      · rw [h2]; push_cast; rfl
      · rw [hap, if_neg hx, add_zero]; exact h6
      · intro hp
        refine h7 fun j hj => ?_
        have := hp j hj
        rwa [List.take_append_of_le_length (by omega)] at this

/-- A sum of terms of at most 1, one step further. -/
theorem unit_step (r : Rounding R) {B : Nat} (hr : r.Orderly B) {n : Nat} (hn : 2 * (n + 1) ≤ B) {s t v x e : R}
    (h0 : 0 ≤ s) (h1 : s ≤ n) (hs : |s - t| ≤ unitError r.u r.η e n) (hv0 : 0 ≤ v) (hv1 : v ≤ 1) (hv : |v - x| ≤ e) :
    0 ≤ r.rnd (s + v) ∧ r.rnd (s + v) ≤ ((n + 1 : Nat) : R) ∧ |r.rnd (s + v) - (t + x)| ≤ unitError r.u r.η e (n + 1) := by
  have hle : s + v ≤ ((n + 1 : Nat) : R) := by push_cast; linarith
  have e1 := r.err_le (add_nonneg h0 hv0) hle
  refine ⟨hr.nonneg (add_nonneg h0 hv0), hr.le_nat hn hle, ?_⟩
  rw [unitError_succ]
  rw [abs_le] at *
  constructor <;> linarith [e1.1, e1.2, hs.1, hs.2, hv.1, hv.2]

/-- The factors of the terms of NDCG of one user. -/
def ndcgPairs (r : Rounding R) (K : Nat) (cg : Nat → R) (rel : Finset Int) (l : List Int) : List (R × R) :=
  (hitPlaces rel l).map fun i => (cg i, 1 / roundCgSum r cg (Spec.bestHits rel K))

/-- Error of the average precision of a user with `K` recommendations. -/
def precisionError (u η : R) (K : Nat) : R := u * (K + 5) / 2 + 3 * η

theorem ap_quotient (r : Rounding R) {K h : Nat} {b ap x : R} (hb : 0 < b) (hh : (h : R) ≤ b) (hk : (h : R) ≤ (K : R)) (h0 : 0 ≤ ap)
    (h1 : ap ≤ h) (he : |ap - x| ≤ unitError r.u r.η (r.u + r.η) h) : |r.rnd (ap / b) - x / b| ≤ precisionError r.u r.η K := by
  have hu := r.u_nonneg
  have hη := r.η_nonneg
  have e1 := r.err_le (b := 1) (div_nonneg h0 hb.le) (by rw [div_le_one hb]; exact h1.trans hh)
  have e2 : |ap / b - x / b| ≤ r.u * (K + 1) / 2 + (r.u + 2 * r.η) := by
    rw [← sub_div, abs_div, abs_of_pos hb, div_le_iff₀ hb]
    refine he.trans ?_
    have h0 : (0 : R) ≤ (h : R) := Nat.cast_nonneg _
    have hc : unitError r.u r.η (r.u + r.η) h = (h : R) * (r.u * ((h : R) + 1) / 2 + (r.u + 2 * r.η)) := by
      unfold unitError; ring
    rw [hc, mul_comm (r.u * (K + 1) / 2 + (r.u + 2 * r.η))]
    refine mul_le_mul hh ?_ (by positivity) hb.le
    have := mul_le_mul_of_nonneg_left hk hu
    linarith
  unfold precisionError
  have e3 := abs_sub_le (r.rnd (ap / b)) (ap / b) (x / b)
  linarith

theorem roundMetricsUser_ok (r : Rounding R) {B : Nat} (hr : r.Orderly B) (K items : Nat) (hK : 1 ≤ K) (cg : Nat → R)
    (row : List (Nat × R)) (hrow : row ≠ []) (htest : Spec.ValidTest items row) (ranked : List Int)
    (hranked : Spec.ValidRanking items K ranked) (s : MetricSums R) (m p t : Nat) (hm : s.relevant = m) (hp : s.prDiv = p)
    (ht : s.total = t) (hB : 2 * (m + K) ≤ B) (hB2 : 2 * (p + K) ≤ B) (hB3 : 2 * (t + 1) ≤ B) (hi : 2 * (items * items) ≤ B) :
    ∃ v : R, roundMetricsUser r K items cg row ranked s = .ok
      { relevant := ((m + Spec.hits (Spec.relevant row) ranked : Nat) : R)
        prDiv := ((p + Spec.bestHits (Spec.relevant row) K : Nat) : R)
        total := ((t + 1 : Nat) : R)
        meanAp := r.rnd (s.meanAp + v)
        ndcg := ((ndcgPairs r K cg (Spec.relevant row) ranked).map fun q => r.rnd (q.1 * q.2)).foldl (fun s v => r.rnd (s + v)) s.ndcg
        meanAuc := r.rnd (s.meanAuc + r.rnd (Spec.auc (Spec.relevant row) (Spec.allItems items) ranked)) } ∧
      0 ≤ v ∧ v ≤ 1 ∧ |v - Spec.averagePrecision (Spec.relevant row) ranked K| ≤ precisionError r.u r.η K ∧
      (Spec.Perfect (Spec.relevant row) K ranked → v = 1) := by
  have hpos := relevant_pos hrow
  have hsub := relevant_subset htest.existing
  have hproper := htest.proper
  have hlt : (Spec.relevant row).card < items := hproper
  have hnegN : (Spec.allItems items \ Spec.relevant row).card = items - (Spec.relevant row).card := by
    rw [card_sdiff_of_subset hsub, allItems_card]
  have hKi : K ≤ items := by
    have h1 : ranked.toFinset ⊆ Spec.allItems items := fun x hx => hranked.existing x (List.mem_toFinset.mp hx)
    have h2 := card_le_card h1
    rw [List.toFinset_card_of_nodup hranked.distinct, hranked.length, allItems_card] at h2
    exact h2
  set rel := Spec.relevant row with hrel
  have hneg : ((Spec.allItems items \ rel).card : R) = (items : R) - (rel.card : R) := by
    rw [hnegN, Nat.cast_sub (le_of_lt hlt)]
  have hii : 2 * items ≤ items * items := Nat.mul_le_mul_right _ (by omega)
  obtain ⟨a, ap, h1, h2, h3, h4, h5, h6, h7⟩ := roundMetrics_scan r hr (row.map Prod.fst).dedup cg
    (roundCgSum r cg (min K rel.card)) rel (likes_mem row)
    { s with prDiv := r.rnd (s.prDiv + ((min K rel.card : Nat) : R)) } m hm ranked (by rw [hranked.length]; omega)
    (by rw [hranked.length]; nlinarith)
  obtain ⟨a', g1, g2⟩ := metrics_scan (row.map Prod.fst).dedup cg (roundCgSum r cg (min K rel.card)) rel (likes_mem row)
    { s with prDiv := r.rnd (s.prDiv + ((min K rel.card : Nat) : R)) } ranked
  rw [g1] at h2
  simp only at h2
  have g2 := g2 (Spec.allItems items) hranked.distinct hranked.existing
  rw [h2] at g2
  have hhb : Spec.hits rel ranked ≤ Spec.bestHits rel K := hits_le_best rel hranked
  have hhl : Spec.hits rel ranked ≤ ranked.length := hits_le_length rel ranked
  have hhr : Spec.hits rel ranked ≤ rel.card := hits_le_card rel hranked.distinct
  have hmis : ranked.length - Spec.hits rel ranked ≤ items - rel.card := by
    rw [misses_eq_card rel (Spec.allItems items) hranked.distinct hranked.existing, ← hnegN]
    exact card_filter_le _ _
  have hprod : 2 * (rel.card * (items - rel.card)) ≤ B := by
    have : rel.card * (items - rel.card) ≤ items * items := Nat.mul_le_mul (by omega) (by omega)
    omega
  have hbest : 1 ≤ min K rel.card := by omega
  have hnegr : r.rnd ((items : R) - (rel.card : R)) = ((items - rel.card : Nat) : R) := by
    rw [← Nat.cast_sub (le_of_lt hlt)]
    exact hr.nat (by omega)
  have hpn : r.rnd ((rel.card : R) * ((items - rel.card : Nat) : R)) = ((rel.card * (items - rel.card) : Nat) : R) := by
    rw [← Nat.cast_mul]; exact hr.nat hprod
  have hpn0 : ((rel.card * (items - rel.card) : Nat) : R) ≠ 0 := by
    rw [Ne, Nat.cast_eq_zero]
    exact Nat.mul_ne_zero (by omega) (by omega)
  have hd : r.rnd (s.prDiv + ((min K rel.card : Nat) : R)) = ((p + Spec.bestHits rel K : Nat) : R) := by
    rw [hp, ← Nat.cast_add]
    exact hr.nat (by omega)
  have hsum : r.rnd ((Spec.hits rel ranked : R) + (rel.card : R)) = ((Spec.hits rel ranked + rel.card : Nat) : R) := by
    rw [← Nat.cast_add]; exact hr.nat (by omega)
  have hhalf : r.rnd (((Spec.hits rel ranked + rel.card : Nat) : R) / 2) = ((Spec.hits rel ranked + rel.card : Nat) : R) / 2 :=
    hr.half (by omega)
  have hleft : r.rnd (((items - rel.card : Nat) : R) - ((ranked.length : R) - (Spec.hits rel ranked : R))) =
      ((items - rel.card - (ranked.length - Spec.hits rel ranked) : Nat) : R) := by
    rw [← Nat.cast_sub hhl, ← Nat.cast_sub hmis]
    exact hr.nat (by omega)
  generalize hw : items - rel.card - (ranked.length - Spec.hits rel ranked) = w at hleft
  have hrest : r.rnd (((Spec.hits rel ranked + rel.card : Nat) : R) / 2 * (w : R)) =
      (((Spec.hits rel ranked + rel.card) * w : Nat) : R) / 2 := by
    rw [div_mul_eq_mul_div, ← Nat.cast_mul]
    refine hr.half ?_
    have k1 : (Spec.hits rel ranked + rel.card) * w ≤ (2 * rel.card) * (items - rel.card) := Nat.mul_le_mul (by omega) (by omega)
    rw [Nat.mul_assoc] at k1
    omega
  have hauc : r.rnd ((a : R) + (((Spec.hits rel ranked + rel.card) * w : Nat) : R) / 2) = creditSum rel (Spec.allItems items) ranked := by
    have e : (a : R) + (((Spec.hits rel ranked + rel.card) * w : Nat) : R) / 2 =
        ((2 * a + (Spec.hits rel ranked + rel.card) * w : Nat) : R) / 2 := by
      push_cast; ring
    rw [e, hr.half]
    · rw [← g2, hneg, ← hw, Nat.cast_add, Nat.cast_mul, Nat.cast_mul, Nat.cast_sub hmis, Nat.cast_sub hhl, Nat.cast_sub (le_of_lt hlt)]
      push_cast
      ring
    · have hwe : (ranked.length - Spec.hits rel ranked) + w = items - rel.card := by omega
      have k1 : a ≤ rel.card * (ranked.length - Spec.hits rel ranked) := h3.trans (Nat.mul_le_mul_right _ hhr)
      have k2 : (Spec.hits rel ranked + rel.card) * w ≤ (2 * rel.card) * w := Nat.mul_le_mul_right _ (by omega)
      have k3 : rel.card * (ranked.length - Spec.hits rel ranked) + rel.card * w = rel.card * (items - rel.card) := by
        rw [← Nat.mul_add, hwe]
      have k4 : 2 * rel.card * w = 2 * (rel.card * w) := by ring
      omega
  have hb0 : (0 : R) < ((min K rel.card : Nat) : R) := by exact_mod_cast hbest
  have hq0 : 0 ≤ ap / ((min K rel.card : Nat) : R) := div_nonneg h4 hb0.le
  have hq1 : ap / ((min K rel.card : Nat) : R) ≤ ((1 : Nat) : R) := by
    rw [Nat.cast_one, div_le_one hb0]
    exact h5.trans (by exact_mod_cast hhb)
  have hone : 2 * 1 ≤ B := by omega
  refine ⟨r.rnd (ap / ((min K rel.card : Nat) : R)), ?_, hr.nonneg hq0, by simpa using hr.le_nat hone hq1, ?_, ?_⟩
  · unfold roundMetricsUser
    simp only [likes_card, ← hrel]
    rw [if_neg (by omega), if_neg (by rw [hranked.length]; omega), List.take_of_length_le (by rw [hranked.length]), h1]
    simp only
    rw [hnegr, hpn, if_neg hpn0, hsum, hhalf, hleft, hrest, hauc, hd, ht]
    congr 1
    congr 1
    · have := hr.nat (n := t + 1) (by omega)
      rw [← this]; push_cast; rfl
    · unfold ndcgPairs
      rw [List.map_map, List.foldl_map]
      congr 1
      funext x i
      simp only [Function.comp, mul_one_div]
      rfl
    · congr 2
      rw [Spec.auc, hneg, ← Nat.cast_sub (le_of_lt hlt), ← Nat.cast_mul]
      rfl
  · exact ap_quotient r hb0 (by exact_mod_cast hhb) (by exact_mod_cast hhb.trans (min_le_left _ _)) h4 h5 h6
  · intro hperf
    have hh := hits_of_perfect hranked hperf
    have hfull : Spec.hits rel ranked = Spec.bestHits rel K := by
      refine le_antisymm hhb ?_
      have := hh _ (le_refl _)
      rw [← this]
      conv_lhs => rw [this]
      have h' : Spec.hits rel (ranked.take (Spec.bestHits rel K)) ≤ Spec.hits rel ranked :=
        List.Sublist.countP_le (List.take_sublist _ _)
      omega
    rw [h7 fun j hj => hh j (hj.trans hhb), hfull]
    have : ((Spec.bestHits rel K : Nat) : R) / ((min K rel.card : Nat) : R) = ((1 : Nat) : R) := by
      rw [Nat.cast_one]; exact div_self hb0.ne'
    rw [this, hr.nat hone, Nat.cast_one]

/-- The accumulators after the users `us`. -/
structure RoundInv (r : Rounding R) (K items : Nat) (cg : Nat → R) (test : SpRows R) (rank : Nat → List Int) (us : List Nat)
    (s : MetricSums R) : Prop where
  relevant : s.relevant = ((us.map fun u => Spec.hits (Spec.relevant (test.getD u [])) (rank u)).sum : Nat)
  prDiv : s.prDiv = ((us.map fun u => Spec.bestHits (Spec.relevant (test.getD u [])) K).sum : Nat)
  total : s.total = us.length
  ap0 : 0 ≤ s.meanAp
  ap1 : s.meanAp ≤ us.length
  apErr : |s.meanAp - (us.map fun u => Spec.averagePrecision (Spec.relevant (test.getD u [])) (rank u) K).sum| ≤
    unitError r.u r.η (precisionError r.u r.η K) us.length
  perfect : (∀ u ∈ us, Spec.Perfect (Spec.relevant (test.getD u [])) K (rank u)) → s.meanAp = us.length
  auc0 : 0 ≤ s.meanAuc
  auc1 : s.meanAuc ≤ us.length
  aucErr : |s.meanAuc - (us.map fun u => Spec.auc (Spec.relevant (test.getD u [])) (Spec.allItems items) (rank u)).sum| ≤
    unitError r.u r.η (r.u + r.η) us.length
  ndcg : s.ndcg = roundSum r (us.flatMap fun u => ndcgPairs r K cg (Spec.relevant (test.getD u [])) (rank u))

theorem RoundInv.nil (r : Rounding R) (K items : Nat) (cg : Nat → R) (test : SpRows R) (rank : Nat → List Int) :
    RoundInv r K items cg test rank [] ⟨0, 0, 0, 0, 0, 0⟩ where
  relevant := by simp
  prDiv := by simp
  total := by simp
  ap0 := le_refl _
  ap1 := by simp
  apErr := by simp [unitError]
  perfect := fun _ => by simp
  auc0 := le_refl _
  auc1 := by simp
  aucErr := by simp [unitError]
  ndcg := rfl

/-- A user whose metrics are defined, with a proper list of recommendations. -/
def ProperUser (K items : Nat) (test : SpRows R) (rank : Nat → List Int) (u : Nat) : Prop :=
  test.getD u [] ≠ [] ∧ Spec.ValidTest items (test.getD u []) ∧ Spec.ValidRanking items K (rank u)

theorem sum_map_le_mul {us : List Nat} {g : Nat → Nat} {K : Nat} (h : ∀ u ∈ us, g u ≤ K) : (us.map g).sum ≤ us.length * K := by
  induction us with
  | nil => simp
  | cons u us ih =>
    have h1 := h u (by simp)
    have h2 := ih fun v hv => h v (by simp [hv])
    rw [List.map_cons, List.sum_cons, List.length_cons, Nat.succ_mul]
    omega

theorem RoundInv.step {r : Rounding R} {B : Nat} (hr : r.Orderly B) {K items : Nat} (hK : 1 ≤ K) (hi : 2 * (items * items) ≤ B)
    {cg : Nat → R} {test : SpRows R} {rank : Nat → List Int} {us : List Nat} {s : MetricSums R}
    (hs : RoundInv r K items cg test rank us s) (hus : ∀ u ∈ us, ProperUser K items test rank u) {u : Nat}
    (hu : ProperUser K items test rank u) (hB : 2 * ((us.length + 1) * K) ≤ B) :
    ∃ s', roundMetricsUser r K items cg (test.getD u []) (rank u) s = .ok s' ∧ RoundInv r K items cg test rank (us ++ [u]) s' := by
  obtain ⟨h1, h2, h3⟩ := hu
  have b1 : (us.map fun u => Spec.hits (Spec.relevant (test.getD u [])) (rank u)).sum ≤ us.length * K :=
    sum_map_le_mul fun v hv => (hits_le_best _ (hus v hv).2.2).trans (min_le_left _ _)
  have b2 : (us.map fun u => Spec.bestHits (Spec.relevant (test.getD u [])) K).sum ≤ us.length * K :=
    sum_map_le_mul fun v _ => min_le_left _ _
  have b3 : (us.length + 1) * K = us.length * K + K := Nat.succ_mul _ _
  have b4 : us.length + 1 ≤ (us.length + 1) * K := Nat.le_mul_of_pos_right _ hK
  obtain ⟨v, e, v0, v1, ve, vp⟩ := roundMetricsUser_ok r hr K items hK cg _ h1 h2 _ h3 s _ _ _ hs.relevant hs.prDiv hs.total
    (by omega) (by omega) (by omega) hi
  refine ⟨_, e, ?_⟩
  have hN : 2 * (us.length + 1) ≤ B := by omega
  obtain ⟨a0, a1, ae⟩ := unit_step r hr hN hs.ap0 hs.ap1 hs.apErr v0 v1 ve
  have hau := auc_unit (R := R) (Spec.relevant (test.getD u [])) (Spec.allItems items) (rank u)
  have hone : 2 * 1 ≤ B := by omega
  have haue := r.err_le hau.1 hau.2
  rw [mul_one] at haue
  obtain ⟨c0, c1, ce⟩ := unit_step r hr hN hs.auc0 hs.auc1 hs.aucErr (hr.nonneg hau.1)
    (by simpa using hr.le_nat hone (by simpa using hau.2)) haue
  refine ⟨?_, ?_, ?_, a0, ?_, ?_, ?_, c0, ?_, ?_, ?_⟩
  · simp
  · simp
  · simp
  · simpa using a1
  · simpa using ae
  · intro hp
    have hp1 := hs.perfect fun w hw => hp w (by simp [hw])
    have hp2 := vp (hp u (by simp))
    rw [hp1, hp2]
    have := hr.nat hN
    rw [List.length_append, List.length_singleton, ← this]
    push_cast
    rfl
  · simpa using c1
  · simpa using ce
  · simp only
    rw [hs.ndcg]
    unfold roundSum
    rw [List.flatMap_append, List.map_append, List.foldl_append]
    simp

theorem roundMetricsBatch_ok {r : Rounding R} {B : Nat} (hr : r.Orderly B) {K items : Nat} (hK : 1 ≤ K) (hi : 2 * (items * items) ≤ B)
    {cg : Nat → R} {test : SpRows R} {rank : Nat → List Int} : ∀ (us : List Nat) {done : List Nat} {s : MetricSums R},
    RoundInv r K items cg test rank done s → (∀ u ∈ done ++ us, ProperUser K items test rank u) →
    2 * ((done ++ us).length * K) ≤ B →
    ∃ s', roundMetricsBatch r K items cg test us (us.map rank) s = .ok s' ∧ RoundInv r K items cg test rank (done ++ us) s'
  | [], done, s, hs, _, _ => ⟨s, rfl, by simpa using hs⟩
  | u :: us, done, s, hs, h, hB => by
    have b : (done.length + 1) * K ≤ (done ++ u :: us).length * K :=
      Nat.mul_le_mul_right _ (by rw [List.length_append, List.length_cons]; omega)
    obtain ⟨s1, e1, hs1⟩ := hs.step hr hK hi (fun v hv => h v (by simp [hv])) (h u (by simp)) (by omega)
    obtain ⟨s2, e2, hs2⟩ := roundMetricsBatch_ok hr hK hi us hs1 (fun v hv => h v (by simpa using hv)) (by simpa using hB)
    refine ⟨s2, ?_, by simpa using hs2⟩
    rw [List.map_cons, roundMetricsBatch, e1]
    exact e2

theorem roundMetricsLoop_ok {r : Rounding R} {B : Nat} (hr : r.Orderly B) {K items : Nat} (hK : 1 ≤ K) (hi : 2 * (items * items) ≤ B)
    {cg : Nat → R} {test : SpRows R} {rank : Nat → List Int} (recommend : List Nat → Except Err (List (List Int))) (b : Nat)
    (hb : 1 ≤ b) : ∀ (fuel : Nat) (us : List Nat) {done : List Nat} {s : MetricSums R}, us.length ≤ fuel →
    RoundInv r K items cg test rank done s → (∀ u ∈ done ++ us, ProperUser K items test rank u) →
    2 * ((done ++ us).length * K) ≤ B →
    (∀ vs : List Nat, vs ≠ [] → (∀ v ∈ vs, v ∈ us) → recommend vs = .ok (vs.map rank)) →
    ∃ s', roundMetricsLoop r recommend b K items cg test fuel us s = .ok s' ∧ RoundInv r K items cg test rank (done ++ us) s'
  | fuel, [], done, s, _, hs, _, _, _ => ⟨s, by cases fuel <;> rfl, by simpa using hs⟩
  | 0, u :: us, done, s, hl, _, _, _, _ => by simp at hl
  | fuel + 1, u :: us, done, s, hl, hs, h, hB, hrec => by
    have hne : (u :: us).take b ≠ [] := by
      obtain ⟨c, rfl⟩ := Nat.exists_eq_add_of_le hb
      rw [Nat.add_comm, List.take_succ_cons]
      simp
    have hsplit : done ++ (u :: us) = (done ++ (u :: us).take b) ++ (u :: us).drop b := by
      rw [List.append_assoc, List.take_append_drop]
    have b1 : (done ++ (u :: us).take b).length * K ≤ (done ++ u :: us).length * K := by
      refine Nat.mul_le_mul_right _ ?_
      rw [hsplit, List.length_append (as := done ++ (u :: us).take b)]
      omega
    obtain ⟨s1, e1, hs1⟩ := roundMetricsBatch_ok hr hK hi ((u :: us).take b) hs
      (fun v hv => h v (by rw [hsplit]; exact List.mem_append_left _ hv)) (by omega)
    obtain ⟨s2, e2, hs2⟩ := roundMetricsLoop_ok hr hK hi recommend b hb fuel ((u :: us).drop b)
      (by rw [List.length_drop]; simp only [List.length_cons] at hl ⊢; omega) hs1 (fun v hv => h v (by rw [hsplit]; exact hv))
      (by rw [← hsplit]; exact hB) (fun vs hvs hv => hrec vs hvs fun v hv' => List.mem_of_mem_drop (hv v hv'))
    refine ⟨s2, ?_, by rw [hsplit]; exact hs2⟩
    rw [roundMetricsLoop, hrec _ hne fun v hv => List.mem_of_mem_take hv]
    simp only [bind, Except.bind]
    rw [e1]
    exact e2

end Implicit
