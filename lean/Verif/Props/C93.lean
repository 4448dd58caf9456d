import Verif.Lemmas.RoundALS
import Verif.Model.RoundAnn
import Verif.Props.C41
import Verif.Props.C62
import Verif.Spec.NearRanking
/-!
# C93 — approximate models in floating point
-/

set_option linter.unusedSectionVars false

namespace Implicit

variable {f : Nat}

/-! ## Filtering a ranking -/

theorem Spec.NearRanking.filterTake {N m : Nat} {E : Nat → Prop} {score : Nat → Option ℝ} {ε : ℝ} {out : List (Nat × ℝ)}
    (h : Spec.NearRanking (N + m) E score ε out) {F : List Nat} (hm : F.length ≤ m) :
    Spec.NearRanking N (fun i => E i ∧ i ∉ F) score ε ((out.filter fun p => !F.contains p.1).take N) := by
  set keep := out.filter fun p => !F.contains p.1 with hkeep
  have hsubl : (keep.take N).Sublist out := (List.take_sublist _ _).trans List.filter_sublist
  have hkm : ∀ p ∈ keep, p ∈ out ∧ p.1 ∉ F := fun p hp => by
    have := List.mem_filter.mp hp
    exact ⟨this.1, by simpa using this.2⟩
  have hmemk : ∀ i, i ∉ F → i ∈ out.map Prod.fst → i ∈ keep.map Prod.fst := fun i hi ho => by
    obtain ⟨p, hp, rfl⟩ := List.mem_map.mp ho
    exact List.mem_map.mpr ⟨p, List.mem_filter.mpr ⟨hp, by simpa using hi⟩, rfl⟩
  have hks := h.sorted.sublist (List.filter_sublist (p := fun p => !F.contains p.1))
  rw [← hkeep] at hks
  refine ⟨fun p hp => ?_, h.distinct.sublist (hsubl.map _), h.sorted.sublist hsubl, by simp, fun hlt i hi => ?_, fun i s hi hs hni p hp t ht => ?_⟩
  · obtain ⟨h1, h2⟩ := hkm p (List.mem_of_mem_take hp)
    exact ⟨⟨(h.mem p h1).1, h2⟩, (h.mem p h1).2⟩
  · have hk : keep.length < N := by simpa using hlt
    rw [List.take_of_length_le hk.le]
    have := length_filter_notMem out h.distinct F
    rw [← hkeep] at this
    exact hmemk i hi.2 (h.complete (by omega) i hi.1)
  · by_cases ho : i ∈ out.map Prod.fst
    · obtain ⟨q, hq, rfl⟩ := List.mem_map.mp (hmemk i hi.2 ho)
      have hq' : q ∈ keep.drop N := by
        rw [← List.take_append_drop N keep, List.mem_append] at hq
        rcases hq with hq | hq
        · exact absurd (List.mem_map.mpr ⟨q, hq, rfl⟩) hni
        · exact hq
      have h1 := hks
      rw [← List.take_append_drop N keep, List.pairwise_append] at h1
      exact h1.2.2 p hp q hq' t s ht hs
    · exact h.best i s hi.1 hs ho p (hkm p (List.mem_of_mem_take hp)).1 t ht

/-- Other scores, in which the ranking is off by `ε'`. -/
theorem Spec.NearRanking.rescale {N : Nat} {E : Nat → Prop} {score score' : Nat → Option ℝ} {ε ε' : ℝ} {out : List (Nat × ℝ)} {g g' : ℝ → ℝ}
    (h : Spec.NearRanking N E score ε (out.map fun p => (p.1, g p.2)))
    (hsome : ∀ i, E i → (score' i).isSome → (score i).isSome) (hsome' : ∀ i, E i → (score i).isSome → (score' i).isSome)
    (hval : ∀ i s s' d, E i → score i = some s → score' i = some s' → |g d - s| ≤ ε → |g' d - s'| ≤ ε')
    (hord : ∀ i j s t s' t', E i → E j → score i = some s → score j = some t → score' i = some s' → score' j = some t' →
      t ≤ s + 2 * ε → t' ≤ s' + 2 * ε') :
    Spec.NearRanking N E score' ε' (out.map fun p => (p.1, g' p.2)) := by
  have hfst : (out.map fun p => (p.1, g p.2)).map Prod.fst = (out.map fun p => (p.1, g' p.2)).map Prod.fst := by
    rw [List.map_map, List.map_map]
    rfl
  have hE : ∀ p ∈ out, E p.1 ∧ ∃ s, score p.1 = some s ∧ |g p.2 - s| ≤ ε := fun p hp =>
    h.mem (p.1, g p.2) (List.mem_map.mpr ⟨p, hp, rfl⟩)
  refine ⟨fun q hq => ?_, by rw [← hfst]; exact h.distinct, ?_, by have := h.atMost; simpa using this, fun hlt i hi => ?_,
    fun i s' hi hs' hni q hq t' ht' => ?_⟩
  · obtain ⟨p, hp, rfl⟩ := List.mem_map.mp hq
    obtain ⟨h1, s, h2, h3⟩ := hE p hp
    obtain ⟨s', hs'⟩ := Option.isSome_iff_exists.mp (hsome' p.1 h1 (by rw [h2]; rfl))
    exact ⟨h1, s', hs', hval _ _ _ _ h1 h2 hs' h3⟩
  · have := h.sorted
    rw [List.pairwise_map] at this ⊢
    refine this.imp_of_mem fun {a b} ha hb hab s' t' hs' ht' => ?_
    obtain ⟨h1, s, h2, -⟩ := hE a ha
    obtain ⟨h3, t, h4, -⟩ := hE b hb
    exact hord _ _ _ _ _ _ h1 h3 h2 h4 hs' ht' (hab s t h2 h4)
  · rw [← hfst]
    exact h.complete (by simpa using hlt) i hi
  · obtain ⟨p, hp, rfl⟩ := List.mem_map.mp hq
    obtain ⟨h1, t, h2, -⟩ := hE p hp
    obtain ⟨s, hs⟩ := Option.isSome_iff_exists.mp (hsome i hi (by rw [hs']; rfl))
    rw [← hfst] at hni
    exact hord _ _ _ _ _ _ h1 hi h2 hs ht' hs' (h.best i s hi hs hni (p.1, g p.2) (List.mem_map.mpr ⟨p, hp, rfl⟩) t h2)

/-- `recommend` of Annoy and NMSLib, with an index whose answers are right up to `ε` once they are scores. -/
theorem annRecommend_near (env : Env f ℝ) (search : Vec (f + 1) ℝ → Nat → List (Int × ℝ)) (norm : Vec (f + 1) ℝ → ℝ) (maxNorm : ℝ)
    (conv : ℝ → ℝ → ℝ) (st : MFState f ℝ) (u : Nat) (user : Vec f ℝ) (hu : st.user[u]? = some user) (items : Nat) (score : Nat → Option ℝ)
    {ε : ℝ} (hnear : ∀ k, ∃ out : List (Nat × ℝ), search (appendZero user) k = out.map (fun p => ((p.1 : Int), p.2)) ∧
      Spec.NearRanking k (fun i => i < items) score ε (out.map fun p => (p.1, conv (maxNorm * norm (appendZero user)) p.2)))
    (liked : List (Nat × ℝ)) (N : Nat) (fl : Bool) (fi : Option PyFilter) (hfi : ListFilter fi) :
    ∃ out, annRecommend env search norm maxNorm conv true st (.one u) (some [liked]) N fl fi false none = (.ok (.one (intRow out)), st) ∧
      Spec.NearRanking N (fun i => i < items ∧ i ∉ banned fl liked fi) score ε out := by
  have hl : annLikes fl (some [liked]) = .ok (if fl then some (liked.map Prod.fst) else none) := by
    cases fl <;> rfl
  obtain ⟨count, filter, hp, h1, h2⟩ := annPlan_list (N := N) hfi (if fl then some (liked.map Prod.fst) else none)
  have hb : filter.getD [] = banned fl liked fi := by
    rw [h1]
    unfold banned
    cases fl <;> rfl
  obtain ⟨out, ho, hr⟩ := hnear count
  have hint : (out.map fun p => ((p.1 : Int), conv (maxNorm * norm (appendZero user)) p.2)) =
      intRow (out.map fun p => (p.1, conv (maxNorm * norm (appendZero user)) p.2)) := by
    unfold intRow
    rw [List.map_map]
    rfl
  have hans : ∃ res, (annFilter filter N (search (appendZero user) count)).map
      (fun p => (p.1, conv (maxNorm * norm (appendZero user)) p.2)) = intRow res ∧
      Spec.NearRanking N (fun i => i < items ∧ i ∉ banned fl liked fi) score ε res := by
    rw [ho, ← hb]
    cases filter with
    | none =>
      refine ⟨out.map fun p => (p.1, conv (maxNorm * norm (appendZero user)) p.2), ?_, ?_⟩
      · show (out.map _).map _ = _
        rw [List.map_map]
        exact hint
      · have e : count = N := h2
        rw [e] at hr
        simpa using hr
    | some ids =>
      rw [h2] at hr
      refine ⟨_, ?_, hr.filterTake (F := ids) (by simp)⟩
      show (filterResults ids N _).map _ = _
      rw [filterResults_map, List.map_map]
      show filterResults ids N (out.map fun p => ((p.1 : Int), conv (maxNorm * norm (appendZero user)) p.2)) = _
      rw [hint, filterResults_intRow]
  obtain ⟨res, h3, h4⟩ := hans
  refine ⟨res, ?_, h4⟩
  have : annRecommendOne search norm maxNorm conv st u (some [liked]) N fl fi false = .ok (intRow res) := by
    unfold annRecommendOne
    simp only [Bool.false_eq_true, if_false, hu, hl, hp, bind, Except.bind, pure, Except.pure]
    rw [h3]
  simp only [annRecommend, Option.isNone_some, Bool.and_false, Bool.false_eq_true, if_false, Option.isSome_none, Bool.false_and, Bool.not_true,
    this]
  rfl

/-! ## Lengths -/

/-- The square root of a number with a small relative error. -/
theorem sqrt_error {G l t : ℝ} (hG : 1 ≤ G) (hG2 : G ≤ 2) (hl : 0 ≤ l) (h : |t - l ^ 2| ≤ (G - 1) * l ^ 2) : |Real.sqrt t - l| ≤ (G - 1) * l := by
  have h2 := abs_le.mp h
  have s1 : Real.sqrt t ≤ G * l := by
    apply Real.sqrt_le_iff.mpr
    refine ⟨by positivity, ?_⟩
    nlinarith [h2.2, sq_nonneg l, mul_nonneg (mul_nonneg (by linarith : (0 : ℝ) ≤ G) (by linarith : (0 : ℝ) ≤ G - 1)) (sq_nonneg l)]
  have s2 : (2 - G) * l ≤ Real.sqrt t := by
    apply Real.le_sqrt_of_sq_le
    nlinarith [h2.1, sq_nonneg l, mul_nonneg (mul_nonneg (by linarith : (0 : ℝ) ≤ 2 - G) (by linarith : (0 : ℝ) ≤ G - 1)) (sq_nonneg l)]
  exact abs_le.mpr ⟨by linarith, by linarith⟩

section
variable (r : Rounding ℝ) (h0 : r.η = 0)
include h0

theorem rnd_rel (x : ℝ) : |r.rnd x - x| ≤ r.u * |x| := by
  have := r.err x
  rwa [h0, add_zero] at this

/-- The sum of the squares. -/
theorem eval_squares {t : SumTree f} (ht : t.Complete) (x : Vec f ℝ) :
    |t.eval r x x - Spec.length x ^ 2| ≤ ((1 + r.u) ^ f - 1) * Spec.length x ^ 2 := by
  have e1 := C62_score r t ht x x
  rw [h0, scoreError_zero] at e1
  rw [show ∑ i, |x i * x i| = dot x x from Finset.sum_congr rfl fun i _ => abs_of_nonneg (mul_self_nonneg _)] at e1
  rwa [length_sq_dot]

/-- A computed norm. -/
theorem rowNorm_near {t : SumTree f} (ht : t.Complete) (hu : (1 + r.u) ^ f ≤ 2) (x : Vec f ℝ) :
    Near ((1 + r.u) ^ (f + 1)) (Spec.length x) (rowNorm r t x) (Spec.length x) := by
  have h := sqrt_error (one_le_growth r.u_nonneg f) hu (length_nonneg x) (eval_squares r h0 ht x)
  have h1 : Near ((1 + r.u) ^ f) (Spec.length x) (Real.sqrt (t.eval r x x)) (Spec.length x) :=
    ⟨one_le_growth r.u_nonneg f, h, (abs_of_nonneg (length_nonneg x)).le⟩
  rw [pow_succ]
  exact h1.round r.u_nonneg (rnd_rel r h0 _)

/-- The square of a rounded square root. -/
theorem near_rnd_sqrt {G A c s : ℝ} (h : Near G A c s) (hc : 0 ≤ c) :
    Near (G * (1 + r.u) ^ 2) A (r.rnd (Real.sqrt c) ^ 2) s := by
  have h1 := (Near.self (Real.sqrt c)).round r.u_nonneg (rnd_rel r h0 _)
  rw [one_mul, abs_of_nonneg (Real.sqrt_nonneg c)] at h1
  have h2 := h1.mul h1
  rw [Real.mul_self_sqrt hc, ← sq, ← sq] at h2
  have h3 := h.round (u := (1 + r.u) ^ 2 - 1) (c' := r.rnd (Real.sqrt c) ^ 2) (by nlinarith [r.u_nonneg]) (by
    rw [abs_of_nonneg hc]
    exact h2.2.1)
  rwa [add_sub_cancel] at h3

/-- The square of a computed norm. -/
theorem rowNorm_sq_near {t : SumTree f} (ht : t.Complete) (hu : (1 + r.u) ^ f ≤ 2) (x : Vec f ℝ) :
    Near ((1 + r.u) ^ (f + 2)) (Spec.length x ^ 2) (rowNorm r t x ^ 2) (Spec.length x ^ 2) := by
  have h := eval_squares r h0 ht x
  have h1 : Near ((1 + r.u) ^ f) (Spec.length x ^ 2) (t.eval r x x) (Spec.length x ^ 2) :=
    ⟨one_le_growth r.u_nonneg f, h, (abs_of_nonneg (sq_nonneg _)).le⟩
  have hpos : 0 ≤ t.eval r x x := by
    have := (abs_le.mp h).1
    nlinarith [sq_nonneg (Spec.length x)]
  rw [pow_add]
  exact near_rnd_sqrt r h0 h1 hpos

/-- The square of the extra coordinate. -/
theorem extra_near {pow : ℝ → ℝ} (hpow : ∀ x, |pow x - x ^ 2| ≤ r.u * x ^ 2) {t : SumTree f} (ht : t.Complete) (hu : (1 + r.u) ^ f ≤ 2)
    {M : ℝ} (x : Vec f ℝ) {e : ℝ} (he : roundExtra r pow M (rowNorm r t x) = some e) :
    |e ^ 2 - (M ^ 2 - Spec.length x ^ 2)| ≤ ((1 + r.u) ^ (f + 6) - 1) * (M ^ 2 + Spec.length x ^ 2) := by
  unfold roundExtra at he
  have hb := (rowNorm_sq_near r h0 ht hu x).round r.u_nonneg (rnd_rel r h0 _)
  rw [← pow_succ, sq (rowNorm r t x)] at hb
  have ha : Near (1 + r.u) (M ^ 2) (pow M) (M ^ 2) :=
    ⟨by linarith [r.u_nonneg], by rw [add_sub_cancel_left]; exact hpow M, (abs_of_nonneg (sq_nonneg M)).le⟩
  have ha' := ha.mono (H := (1 + r.u) ^ (f + 2 + 1)) (by
    rw [← pow_one (1 + r.u), ← pow_mul, one_mul]
    exact growth_mono r.u_nonneg (by omega))
  have hc := (ha'.add hb.neg).round r.u_nonneg (rnd_rel r h0 _)
  rw [← sub_eq_add_neg, ← sub_eq_add_neg, ← pow_succ] at hc
  dsimp only at he
  split_ifs at he with hneg
  have hx := near_rnd_sqrt r h0 hc (not_lt.mp hneg)
  rw [← pow_add] at hx
  rw [← Option.some.inj he]
  exact hx.2.1

end

theorem length_snoc (y : Vec f ℝ) (x : ℝ) : Spec.length (Fin.snoc y x : Vec (f + 1) ℝ) ^ 2 = Spec.length y ^ 2 + x ^ 2 := by
  rw [length_sq_sum, length_sq_sum, Fin.sum_univ_castSucc]
  simp

/-! ## The augmented rows -/

theorem foldl_max_real (l : List ℝ) (a : ℝ) : (∀ x ∈ a :: l, x ≤ l.foldl max a) ∧ l.foldl max a ∈ a :: l := by
  induction l generalizing a with
  | nil => simp
  | cons b l ih =>
    obtain ⟨h1, h2⟩ := ih (max a b)
    simp only [List.foldl_cons]
    refine ⟨fun x hx => ?_, ?_⟩
    · have h3 := h1 (max a b) (by simp)
      rcases List.mem_cons.mp hx with rfl | hx
      · exact (le_max_left _ _).trans h3
      · rcases List.mem_cons.mp hx with rfl | hx
        · exact (le_max_right _ _).trans h3
        · exact h1 x (List.mem_cons_of_mem _ hx)
    · rcases List.mem_cons.mp h2 with h | h
      · rw [h]
        rcases max_choice a b with h | h <;> rw [h] <;> simp
      · exact List.mem_cons_of_mem _ (List.mem_cons_of_mem _ h)

/-- What is returned: the largest norm, and each factor with its extra coordinate. -/
theorem roundAugment_spec {r : Rounding ℝ} {pow : ℝ → ℝ} {order : Nat → SumTree f} {factors : List (Vec f ℝ)} (hne : factors ≠ []) :
    ∃ M, roundAugment r pow order factors =
        .ok (M, factors.zipIdx.map fun p => (roundExtra r pow M (rowNorm r (order p.2) p.1)).map fun x => (Fin.snoc p.1 x : Vec (f + 1) ℝ)) ∧
      (∀ (i : Nat) y, factors[i]? = some y → rowNorm r (order i) y ≤ M) ∧ ∃ (i : Nat) (y : Vec f ℝ), factors[i]? = some y ∧ M = rowNorm r (order i) y := by
  unfold roundAugment
  cases h : factors.zipIdx.map fun p => rowNorm r (order p.2) p.1 with
  | nil =>
    rw [List.map_eq_nil_iff, List.zipIdx_eq_nil_iff] at h
    exact absurd h hne
  | cons n ns =>
    obtain ⟨h1, h2⟩ := foldl_max_real ns n
    rw [← h] at h1 h2
    refine ⟨_, rfl, fun i y hy => ?_, ?_⟩
    · exact h1 _ (List.mem_map.mpr ⟨(y, i), mem_zipIdx_iff'.mpr hy, rfl⟩)
    · obtain ⟨p, hp, he⟩ := List.mem_map.mp h2
      exact ⟨p.2, p.1, mem_zipIdx_iff'.mp hp, he.symm⟩

section
variable {r : Rounding ℝ} {pow : ℝ → ℝ} {order : Nat → SumTree f} {factors : List (Vec f ℝ)}

/-- **C93** (no NaN).  If rounding is monotone and the scalar power not below the rounded square, no row gets a NaN, and the first coordinates are
the factor itself. -/
theorem C93_no_nan (hmono : Monotone r.rnd) (hzero : r.rnd 0 = 0) (hpow : ∀ x, r.rnd (x * x) ≤ pow x) (hne : factors ≠ []) :
    ∃ M, ∃ ext : List (Vec (f + 1) ℝ), roundAugment r pow order factors = .ok (M, ext.map some) ∧ ext.length = factors.length ∧
      ∀ (i : Nat) y, factors[i]? = some y → ∃ e, ext[i]? = some e ∧ ∀ j : Fin f, e j.castSucc = y j := by
  obtain ⟨M, h1, h2, -⟩ := roundAugment_spec (r := r) (pow := pow) (order := order) hne
  have hpos : ∀ x, 0 ≤ x → 0 ≤ r.rnd x := fun x hx => by
    rw [← hzero]
    exact hmono hx
  have hextra : ∀ (i : Nat) y, factors[i]? = some y → ∃ x, roundExtra r pow M (rowNorm r (order i) y) = some x := fun i y hy => by
    have hn : 0 ≤ rowNorm r (order i) y := hpos _ (Real.sqrt_nonneg _)
    have hle := h2 i y hy
    unfold roundExtra
    refine ⟨_, if_neg (not_lt.mpr (hpos _ ?_))⟩
    have := hmono (mul_le_mul hle hle hn (hn.trans hle))
    linarith [hpow M]
  refine ⟨M, factors.zipIdx.map fun p => (Fin.snoc p.1 ((roundExtra r pow M (rowNorm r (order p.2) p.1)).getD 0) : Vec (f + 1) ℝ), ?_, by simp,
    fun i y hy => ?_⟩
  · rw [h1, List.map_map]
    congr 2
    refine List.map_congr_left fun p hp => ?_
    obtain ⟨x, hx⟩ := hextra p.2 p.1 (mem_zipIdx_iff'.mp hp)
    simp [hx]
  · refine ⟨Fin.snoc y ((roundExtra r pow M (rowNorm r (order i) y)).getD 0), ?_, fun j => by simp⟩
    rw [List.getElem?_map, List.getElem?_zipIdx, hy]
    simp

/-- **C93** (the power matters).  If the scalar power falls below the rounded square, by an amount that is not rounded away, then the longest
factor gets a NaN. -/
theorem C93_power_below (hne : factors ≠ [])
    (hbelow : ∀ y ∈ factors, ∀ i, r.rnd (pow (rowNorm r (order i) y) - r.rnd (rowNorm r (order i) y * rowNorm r (order i) y)) < 0) :
    ∃ M rows, roundAugment r pow order factors = .ok (M, rows) ∧ ∃ i : Nat, i < factors.length ∧ rows[i]? = some none := by
  obtain ⟨M, h1, -, i, y, hy, hM⟩ := roundAugment_spec (r := r) (pow := pow) (order := order) hne
  refine ⟨M, _, h1, i, (List.getElem?_eq_some_iff.mp hy).1, ?_⟩
  rw [List.getElem?_map, List.getElem?_zipIdx, hy]
  simp only [Option.map_some, Nat.zero_add, Option.some.injEq, Option.map_eq_none_iff]
  unfold roundExtra
  rw [← hM]
  refine if_pos ?_
  rw [hM]
  exact hbelow y (List.mem_of_getElem? hy) i

variable {M : ℝ} {ext : List (Vec (f + 1) ℝ)} (haug : roundAugment r pow order factors = .ok (M, ext.map some))
include haug

/-- The rows of the index. -/
theorem augmented_row : ext.length = factors.length ∧ (∀ (i : Nat) y, factors[i]? = some y → rowNorm r (order i) y ≤ M) ∧
    (∃ (i : Nat) (y : Vec f ℝ), factors[i]? = some y ∧ M = rowNorm r (order i) y) ∧
    ∀ (i : Nat) y, factors[i]? = some y → ∃ x, roundExtra r pow M (rowNorm r (order i) y) = some x ∧ ext[i]? = some (Fin.snoc y x) := by
  have hne : factors ≠ [] := by
    rintro rfl
    cases haug
  obtain ⟨M', h1, h2, h3⟩ := roundAugment_spec (r := r) (pow := pow) (order := order) hne
  rw [h1] at haug
  injection haug with haug
  injection haug with hM he
  subst hM
  have hlen := congrArg List.length he
  simp only [List.length_map, List.length_zipIdx] at hlen
  refine ⟨hlen.symm, h2, h3, fun i y hy => ?_⟩
  have h4 := congrArg (fun l => l[i]?) he
  simp only [List.getElem?_map, List.getElem?_zipIdx, hy, Option.map_some, Nat.zero_add] at h4
  cases hx : roundExtra r pow M' (rowNorm r (order i) y) with
  | none =>
    rw [hx] at h4
    cases h5 : ext[i]? <;> rw [h5] at h4 <;> simp at h4
  | some x =>
    rw [hx] at h4
    refine ⟨x, rfl, ?_⟩
    cases h5 : ext[i]? with
    | none => rw [h5] at h4; simp at h4
    | some e =>
      rw [h5] at h4
      simp only [Option.map_some, Option.some.injEq] at h4
      rw [h4]

variable (h0 : r.η = 0) (hpow : ∀ x, |pow x - x ^ 2| ≤ r.u * x ^ 2) (ho : ∀ i, (order i).Complete) (hu : (1 + r.u) ^ (f + 6) - 1 ≤ 1 / 8)
include h0 hpow ho hu

theorem small_growth : (1 + r.u) ^ f ≤ 2 := by
  have := growth_mono r.u_nonneg (show f ≤ f + 6 by omega)
  linarith

theorem maxNorm_nonneg : 0 ≤ M := by
  obtain ⟨-, -, ⟨i, y, -, rfl⟩, -⟩ := augmented_row haug
  have h := (rowNorm_near r h0 (ho i) (small_growth haug h0 hpow ho hu) y).2.1
  have h1 := growth_mono r.u_nonneg (show f + 1 ≤ f + 6 by omega)
  have := (abs_le.mp h).1
  nlinarith [length_nonneg y]

/-- **C93** (the largest norm).  It is the length of a factor, up to rounding, and no factor is longer, up to rounding. -/
theorem C93_max_norm : (∃ y ∈ factors, |M - Spec.length y| ≤ ((1 + r.u) ^ (f + 1) - 1) * Spec.length y) ∧
    ∀ y ∈ factors, (2 - (1 + r.u) ^ (f + 1)) * Spec.length y ≤ M := by
  obtain ⟨-, h1, ⟨i, y, hy, hM⟩, -⟩ := augmented_row haug
  have hs := small_growth haug h0 hpow ho hu
  refine ⟨⟨y, List.mem_of_getElem? hy, ?_⟩, fun z hz => ?_⟩
  · rw [hM]
    exact (rowNorm_near r h0 (ho i) hs y).2.1
  · obtain ⟨j, hj⟩ := List.mem_iff_getElem?.mp hz
    have := (abs_le.mp (rowNorm_near r h0 (ho j) hs z).2.1).1
    linarith [h1 j z hj]

/-- **C93** (equal lengths).  All rows of the index have the length of the longest factor, up to rounding. -/
theorem C93_lengths {e : Vec (f + 1) ℝ} (he : e ∈ ext) : |Spec.length e - M| ≤ 3 * ((1 + r.u) ^ (f + 6) - 1) * M := by
  obtain ⟨hlen, h1, -, h2⟩ := augmented_row haug
  have hs := small_growth haug h0 hpow ho hu
  have hM := maxNorm_nonneg haug h0 hpow ho hu
  obtain ⟨i, hi⟩ := List.mem_iff_getElem?.mp he
  have hlt : i < factors.length := by
    rw [← hlen]
    exact (List.getElem?_eq_some_iff.mp hi).1
  obtain ⟨x, hx, hx'⟩ := h2 i _ (List.getElem?_eq_getElem hlt)
  rw [hi] at hx'
  have e1 := length_snoc factors[i] x
  rw [← Option.some.inj hx'] at e1
  have e2 := extra_near r h0 hpow (ho i) hs factors[i] hx
  have e3 := (rowNorm_sq_near r h0 (ho i) hs factors[i]).2.1
  have e4 := h1 i _ (List.getElem?_eq_getElem hlt)
  have e5 : 0 ≤ rowNorm r (order i) factors[i] := by
    have h := (rowNorm_near r h0 (ho i) hs factors[i]).2.1
    have h1 := growth_mono r.u_nonneg (show f + 1 ≤ f + 6 by omega)
    have := (abs_le.mp h).1
    nlinarith [length_nonneg factors[i]]
  have e6 : rowNorm r (order i) factors[i] ^ 2 ≤ M ^ 2 := pow_le_pow_left₀ e5 e4 2
  have e7 := growth_mono r.u_nonneg (show f + 2 ≤ f + 6 by omega)
  have hg := one_le_growth r.u_nonneg (f + 6)
  generalize (1 + r.u) ^ (f + 6) = G at *
  generalize (1 + r.u) ^ (f + 2) = H at *
  generalize rowNorm r (order i) factors[i] = n at *
  have hL := length_nonneg factors[i]
  have hE := length_nonneg e
  generalize Spec.length factors[i] = L at *
  generalize Spec.length e = E at *
  have e8 : L ^ 2 * (7 / 8) ≤ M ^ 2 := by
    have := (abs_le.mp e3).1
    nlinarith [sq_nonneg L]
  have e9 : |E ^ 2 - M ^ 2| ≤ 3 * (G - 1) * M ^ 2 := by
    have : E ^ 2 - M ^ 2 = x ^ 2 - (M ^ 2 - L ^ 2) := by linarith
    rw [this]
    refine e2.trans ?_
    nlinarith [sq_nonneg M]
  rcases hM.eq_or_lt with hz | hp
  · rw [← hz] at e9 ⊢
    have : E ^ 2 = 0 := by
      have := abs_nonpos_iff.mp (e9.trans (by simp))
      linarith
    rw [pow_eq_zero_iff (by norm_num)] at this
    simp [this]
  · have h3 : |E - M| * (E + M) = |E ^ 2 - M ^ 2| := by
      have h6 : E ^ 2 - M ^ 2 = (E - M) * (E + M) := by ring
      rw [h6, abs_mul, abs_of_nonneg (by linarith : 0 ≤ E + M)]
    have h4 : |E - M| * M ≤ |E - M| * (E + M) := mul_le_mul_of_nonneg_left (by linarith) (abs_nonneg _)
    have h5 : |E - M| * M ≤ 3 * (G - 1) * M * M := by
      rw [h3] at h4
      nlinarith
    exact le_of_mul_le_mul_right h5 hp

/-- **C93** (inner products from angles).  The cosine between the extended query and a row of the index, times both lengths, is the inner
product up to rounding. -/
theorem C93_scores (q : Vec f ℝ) {i : Nat} {y : Vec f ℝ} (hy : factors[i]? = some y) : ∃ e, ext[i]? = some e ∧
    |M * Spec.length q * Spec.cosine (appendZero q) e - ∑ j, q j * y j| ≤ 3 * ((1 + r.u) ^ (f + 6) - 1) * (M * Spec.length q) := by
  obtain ⟨-, -, -, h2⟩ := augmented_row haug
  obtain ⟨x, -, hx⟩ := h2 i y hy
  refine ⟨_, hx, ?_⟩
  have hlen := C93_lengths haug h0 hpow ho hu (List.mem_of_getElem? hx)
  have hM := maxNorm_nonneg haug h0 hpow ho hu
  have hQ : Spec.length (appendZero q) = Spec.length q := by rw [← l2norm_eq, ← l2norm_eq, l2norm_appendZero]
  have hD := dot_appendZero q y x
  rw [← dot_eq_sum, ← hD]
  have hdot := abs_dot_le_length (appendZero q) (Fin.snoc y x : Vec (f + 1) ℝ)
  have hg := one_le_growth r.u_nonneg (f + 6)
  have hb : 0 ≤ 3 * ((1 + r.u) ^ (f + 6) - 1) * (M * Spec.length q) := by
    have := length_nonneg q
    have : 0 ≤ (1 + r.u) ^ (f + 6) - 1 := by linarith
    positivity
  unfold Spec.cosine
  split_ifs with hz
  · have : dot (appendZero q) (Fin.snoc y x : Vec (f + 1) ℝ) = 0 := by
      rcases hz with hz | hz <;> rw [hz] <;> simp [dot]
    rw [this]
    simpa using hb
  · push Not at hz
    have p1 : 0 < Spec.length q := by
      rw [← hQ, ← l2norm_eq]
      exact l2norm_pos hz.1
    have p2 : 0 < Spec.length (Fin.snoc y x : Vec (f + 1) ℝ) := by
      rw [← l2norm_eq]
      exact l2norm_pos hz.2
    rw [← dot_eq_sum, hQ]
    rw [hQ] at hdot
    generalize dot (appendZero q) (Fin.snoc y x : Vec (f + 1) ℝ) = D at *
    generalize Spec.length (Fin.snoc y x : Vec (f + 1) ℝ) = E at *
    generalize Spec.length q = Q at *
    have e1 : M * Q * (D / (Q * E)) - D = D / E * (M - E) := by
      field_simp
    rw [e1, abs_mul, abs_div, abs_of_pos p2]
    have e2 : |D| / E ≤ Q := by
      rw [div_le_iff₀ p2]
      exact hdot
    calc |D| / E * |M - E| ≤ Q * (3 * ((1 + r.u) ^ (f + 6) - 1) * M) := by
          rw [abs_sub_comm M E]
          exact mul_le_mul e2 hlen (abs_nonneg _) p1.le
      _ = _ := by ring

end

/-! ## Recommendations -/

section
variable (s : Rounding ℝ) (h0 : s.η = 0)
include h0

/-- The scale of the scores. -/
theorem scaling_near {t : SumTree (f + 1)} (ht : t.Complete) (hv : (1 + s.u) ^ (f + 1) ≤ 2) {M : ℝ} (hM : 0 ≤ M) (q : Vec f ℝ) :
    Near ((1 + s.u) ^ (f + 3)) (M * Spec.length q) (s.rnd (M * rowNorm s t (appendZero q))) (M * Spec.length q) := by
  have hQ : Spec.length (appendZero q) = Spec.length q := by rw [← l2norm_eq, ← l2norm_eq, l2norm_appendZero]
  have h1 := rowNorm_near s h0 ht hv (appendZero q)
  rw [hQ] at h1
  have h2 := ((Near.self M).mul h1).round s.u_nonneg (rnd_rel s h0 _)
  rw [one_mul, abs_of_nonneg hM, ← pow_succ] at h2
  exact h2

theorem annoyScore_near {k : Nat} {S sc : ℝ} (hS : Near ((1 + s.u) ^ k) S (s.rnd sc) S) (d : ℝ) :
    Near ((1 + s.u) ^ (k + 4)) (S * (1 + d ^ 2 / 2)) (roundAnnoyScore s sc d) (S * (1 - d ^ 2 / 2)) := by
  have h1 := (Near.self (d * d)).round s.u_nonneg (rnd_rel s h0 _)
  have h2 := (h1.mul (Near.self (1 / 2))).round s.u_nonneg (rnd_rel s h0 _)
  have h3 := (((Near.self 1).mono h2.1).add h2.neg).round s.u_nonneg (rnd_rel s h0 _)
  have h4 := (hS.mul h3).round s.u_nonneg (rnd_rel s h0 _)
  have e1 : (1 + s.u) ^ k * (1 * (1 + s.u) * 1 * (1 + s.u) * (1 + s.u)) * (1 + s.u) = (1 + s.u) ^ (k + 4) := by ring
  have e2 : S * (|1| + |d * d| * |1 / 2|) = S * (1 + d ^ 2 / 2) := by
    rw [abs_one, abs_of_nonneg (mul_self_nonneg d), abs_of_pos (by norm_num : (0 : ℝ) < 1 / 2)]
    ring
  have e3 : S * (1 + -(d * d * (1 / 2))) = S * (1 - d ^ 2 / 2) := by ring
  rw [e1, e2, e3] at h4
  unfold roundAnnoyScore
  rw [sub_eq_add_neg 1 (s.rnd _), div_eq_mul_one_div (s.rnd (d * d))]
  exact h4

omit h0 in
theorem nmslibScore_near {c w p : Rounding ℝ} {v : ℝ} (hv : s.u ≤ v) (hc : c.η = 0) (hcv : c.u ≤ v) (hw : w.η = 0) (hwv : w.u ≤ v) (hp : p.η = 0)
    (hpv : p.u ≤ v) {k : Nat} {S sc : ℝ} (hS : Near ((1 + s.u) ^ k) S (s.rnd sc) S) (d : ℝ) :
    Near ((1 + v) ^ (k + 3)) (S * |1 - d|) (roundNmslibScore s c w p sc d) (S * (1 - d)) := by
  have hv0 : 0 ≤ v := s.u_nonneg.trans hv
  have hb : ∀ {q : Rounding ℝ}, q.η = 0 → q.u ≤ v → ∀ x, |q.rnd x - x| ≤ v * |x| := fun {q} h1 h2 x =>
    (rnd_rel q h1 x).trans (mul_le_mul_of_nonneg_right h2 (abs_nonneg x))
  have h1 := (hS.mono (pow_le_pow_left₀ (by linarith [s.u_nonneg]) (by linarith : 1 + s.u ≤ 1 + v) k)).round hv0 (hb hc hcv _)
  have h3 := (Near.self (1 - d)).round hv0 (hb hw hwv _)
  have h4 := (h1.mul h3).round hv0 (hb hp hpv _)
  have e1 : (1 + v) ^ k * (1 + v) * (1 * (1 + v)) * (1 + v) = (1 + v) ^ (k + 3) := by ring
  rwa [e1] at h4

omit h0
variable {r : Rounding ℝ} {pow : ℝ → ℝ} {order : Nat → SumTree f} (h0' : r.η = 0) (hpow : ∀ x, |pow x - x ^ 2| ≤ r.u * x ^ 2)
  (ho : ∀ i, (order i).Complete) (hu : (1 + r.u) ^ (f + 6) - 1 ≤ 1 / 8)
include h0' hpow ho hu

/-- An index that is right about cosines is right about inner products. -/
theorem nearIndex_scores {factors : List (Vec f ℝ)} {M : ℝ} {ext : List (Vec (f + 1) ℝ)}
    (haug : roundAugment r pow order factors = .ok (M, ext.map some)) (q : Vec f ℝ) {convert conv : ℝ → ℝ} {v δ : ℝ} (hv0 : 0 ≤ v) (hδ : 0 ≤ δ)
    {search : Nat → List (Int × ℝ)} (hsearch : Spec.NearIndex Spec.cosine convert δ ext (appendZero q) search)
    (hconv : ∀ d c, |c| ≤ 1 → |convert d - c| ≤ δ →
      |conv d - M * Spec.length q * convert d| ≤ ((1 + v) ^ (f + 7) - 1) * (3 + δ) * (M * Spec.length q)) (k : Nat) :
    ∃ out : List (Nat × ℝ), search k = out.map (fun p => ((p.1 : Int), p.2)) ∧
      Spec.NearRanking k (fun i => i < factors.length) (fun i => (factors[i]?).map fun y => ∑ j, q j * y j)
        (Spec.annError r.u v δ f M (Spec.length q)) (out.map fun p => (p.1, conv p.2)) := by
  obtain ⟨out, h1, h2⟩ := hsearch k
  have hlen := (augmented_row haug).1
  rw [hlen] at h2
  have hMQ := mul_nonneg (maxNorm_nonneg haug h0' hpow ho hu) (length_nonneg q)
  have hgv := one_le_growth hv0 (f + 7)
  have hgu := one_le_growth r.u_nonneg (f + 6)
  have hkey : ∀ (i : Nat) c p, (ext[i]?).map (Spec.cosine (appendZero q)) = some c → (factors[i]?).map (fun y => ∑ j, q j * y j) = some p →
      |c| ≤ 1 ∧ |M * Spec.length q * c - p| ≤ 3 * ((1 + r.u) ^ (f + 6) - 1) * (M * Spec.length q) := fun i c p hc hp => by
    obtain ⟨y, hy, rfl⟩ := Option.map_eq_some_iff.mp hp
    obtain ⟨e, he, hs⟩ := C93_scores haug h0' hpow ho hu q hy
    rw [he] at hc
    rw [← Option.some.inj hc]
    exact ⟨cosine_abs_le_one _ _, hs⟩
  refine ⟨out, h1, h2.rescale (fun i hi _ => ?_) (fun i hi _ => ?_) (fun i c p d _ hc hp hd => ?_) (fun i j c c' p p' _ _ hc hc' hp hp' hle => ?_)⟩
  · rw [List.getElem?_eq_getElem (by omega : i < ext.length)]
    rfl
  · rw [List.getElem?_eq_getElem hi]
    rfl
  · obtain ⟨k1, k2⟩ := hkey i c p hc hp
    have k3 := hconv d c k1 hd
    unfold Spec.annError
    generalize (1 + v) ^ (f + 7) = V at *
    generalize (1 + r.u) ^ (f + 6) = U at *
    generalize M * Spec.length q = S at *
    have k4 : |S * convert d - S * c| ≤ δ * S := by
      rw [← mul_sub, abs_mul, abs_of_nonneg hMQ, mul_comm]
      exact mul_le_mul_of_nonneg_right hd hMQ
    have := abs_sub_le (conv d) (S * convert d) p
    have := abs_sub_le (S * convert d) (S * c) p
    linarith
  · obtain ⟨-, k2⟩ := hkey i c p hc hp
    obtain ⟨-, k3⟩ := hkey j c' p' hc' hp'
    unfold Spec.annError
    generalize (1 + v) ^ (f + 7) = V at *
    generalize (1 + r.u) ^ (f + 6) = U at *
    generalize M * Spec.length q = S at *
    have k4 := mul_le_mul_of_nonneg_left hle hMQ
    have k5 : 0 ≤ (V - 1) * (3 + δ) * S := mul_nonneg (mul_nonneg (by linarith) (by linarith)) hMQ
    have := (abs_le.mp k2).2
    have := (abs_le.mp k3).1
    linarith

include h0
variable (hv : (1 + s.u) ^ (f + 1) ≤ 2)
include hv

/-- **C93** (Annoy).  `recommend` on an index over the augmented factors whose angular distances are right up to `δ`: the items that are not
filtered, ranked by inner product up to `annError`, with scores that are as close to the inner products. -/
theorem C93_annoy (env : Env f ℝ) (st : MFState f ℝ) {M : ℝ} {ext : List (Vec (f + 1) ℝ)}
    (haug : roundAugment r pow order st.item = .ok (M, ext.map some)) {t : SumTree (f + 1)} (ht : t.Complete) {δ : ℝ} (hδ : 0 ≤ δ)
    (search : Vec (f + 1) ℝ → Nat → List (Int × ℝ)) (u : Nat) (user : Vec f ℝ) (hus : st.user[u]? = some user)
    (hsearch : Spec.NearIndex Spec.cosine (fun d => 1 - d ^ 2 / 2) δ ext (appendZero user) (search (appendZero user)))
    (liked : List (Nat × ℝ)) (N : Nat) (fl : Bool) (fi : Option PyFilter) (hfi : ListFilter fi) :
    ∃ out, annRecommend env search (rowNorm s t) M (roundAnnoyScore s) true st (.one u) (some [liked]) N fl fi false none =
        (.ok (.one (intRow out)), st) ∧
      Spec.NearRanking N (fun i => i < st.item.length ∧ i ∉ banned fl liked fi) (fun i => (st.item[i]?).map fun y => ∑ j, user j * y j)
        (Spec.annError r.u s.u δ f M (Spec.length user)) out := by
  refine annRecommend_near env search _ M _ st u user hus st.item.length _ (nearIndex_scores h0' hpow ho hu haug user s.u_nonneg hδ hsearch ?_)
    liked N fl fi hfi
  intro d c hc hd
  have hM := maxNorm_nonneg haug h0' hpow ho hu
  have hS := scaling_near s h0 ht hv hM user
  refine (annoyScore_near s h0 hS d).2.1.trans ?_
  have hg := one_le_growth s.u_nonneg (f + 3 + 4)
  have hMQ := mul_nonneg hM (length_nonneg user)
  have h1 := (abs_le.mp hd).1
  have h2 := (abs_le.mp hc).1
  have h3 : M * Spec.length user * (1 + d ^ 2 / 2) ≤ M * Spec.length user * (3 + δ) := mul_le_mul_of_nonneg_left (by linarith) hMQ
  have h4 := mul_le_mul_of_nonneg_left h3 (by linarith : 0 ≤ (1 + s.u) ^ (f + 3 + 4) - 1)
  show _ ≤ ((1 + s.u) ^ (f + 3 + 4) - 1) * (3 + δ) * (M * Spec.length user)
  linarith

/-- **C93** (NMSLib).  The same for an index that answers cosine distances; `v` bounds the errors of the four precisions. -/
theorem C93_nmslib (env : Env f ℝ) (st : MFState f ℝ) {M : ℝ} {ext : List (Vec (f + 1) ℝ)}
    (haug : roundAugment r pow order st.item = .ok (M, ext.map some)) {t : SumTree (f + 1)} (ht : t.Complete) {c w p : Rounding ℝ} {v : ℝ}
    (hsv : s.u ≤ v) (hc0 : c.η = 0) (hcv : c.u ≤ v) (hw0 : w.η = 0) (hwv : w.u ≤ v) (hp0 : p.η = 0) (hpv : p.u ≤ v) {δ : ℝ} (hδ : 0 ≤ δ)
    (search : Vec (f + 1) ℝ → Nat → List (Int × ℝ)) (u : Nat) (user : Vec f ℝ) (hus : st.user[u]? = some user)
    (hsearch : Spec.NearIndex Spec.cosine (fun d => 1 - d) δ ext (appendZero user) (search (appendZero user)))
    (liked : List (Nat × ℝ)) (N : Nat) (fl : Bool) (fi : Option PyFilter) (hfi : ListFilter fi) :
    ∃ out, annRecommend env search (rowNorm s t) M (roundNmslibScore s c w p) true st (.one u) (some [liked]) N fl fi false none =
        (.ok (.one (intRow out)), st) ∧
      Spec.NearRanking N (fun i => i < st.item.length ∧ i ∉ banned fl liked fi) (fun i => (st.item[i]?).map fun y => ∑ j, user j * y j)
        (Spec.annError r.u v δ f M (Spec.length user)) out := by
  refine annRecommend_near env search _ M _ st u user hus st.item.length _ (nearIndex_scores h0' hpow ho hu haug user (s.u_nonneg.trans hsv) hδ hsearch ?_)
    liked N fl fi hfi
  intro d a hc hd
  have hM := maxNorm_nonneg haug h0' hpow ho hu
  have hS := scaling_near s h0 ht hv hM user
  refine ((nmslibScore_near s hsv hc0 hcv hw0 hwv hp0 hpv hS d).mono (growth_mono (s.u_nonneg.trans hsv) (show f + 3 + 3 ≤ f + 7 by omega))).2.1.trans ?_
  have hg := one_le_growth (s.u_nonneg.trans hsv) (f + 7)
  have hMQ := mul_nonneg hM (length_nonneg user)
  have h1 : |1 - d| ≤ 3 + δ := by
    have := abs_sub_abs_le_abs_sub (1 - d) a
    linarith
  have h3 : M * Spec.length user * |1 - d| ≤ M * Spec.length user * (3 + δ) := mul_le_mul_of_nonneg_left h1 hMQ
  have h4 := mul_le_mul_of_nonneg_left h3 (by linarith : 0 ≤ (1 + v) ^ (f + 7) - 1)
  linarith

end

end Implicit
