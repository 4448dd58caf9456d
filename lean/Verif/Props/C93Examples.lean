import Verif.Props.C91Sweep
import Verif.Props.C93
/-!
# C93 — approximate models in floating point: a positive score for an orthogonal item, and examples
-/

set_option linter.unusedSectionVars false

namespace Implicit

/-- A rounded positive number is positive. -/
theorem rnd_pos {s : Rounding ℝ} (h0 : s.η = 0) (hu : s.u ≤ 1 / 2 ^ 30) {x : ℝ} (hx : 0 < x) : 0 < s.rnd x := by
  have := (abs_le.mp (rnd_rel s h0 x)).1
  rw [abs_of_pos hx] at this
  have : s.u * x ≤ 1 / 2 ^ 30 * x := mul_le_mul_of_nonneg_right hu hx.le
  nlinarith

/-- The angular distance of orthogonal vectors in single precision, as a score. -/
theorem annoyScore_sqrt_two {s : Rounding ℝ} (h0 : s.η = 0) (hu : s.u ≤ 1 / 2 ^ 30) {sc : ℝ} (hsc : 0 < sc) :
    0 < roundAnnoyScore s sc (11863283 / 2 ^ 23) := by
  have hb : ∀ x, 0 ≤ x → s.rnd x ≤ x * (1 + 1 / 2 ^ 30) := fun x hx => by
    have := (abs_le.mp (rnd_rel s h0 x)).2
    rw [abs_of_nonneg hx] at this
    have : s.u * x ≤ 1 / 2 ^ 30 * x := mul_le_mul_of_nonneg_right hu hx
    linarith
  unfold roundAnnoyScore
  refine rnd_pos h0 hu (mul_pos (rnd_pos h0 hu hsc) (rnd_pos h0 hu ?_))
  have h1 := hb (11863283 / 2 ^ 23 * (11863283 / 2 ^ 23)) (by norm_num)
  have h2 : 0 < s.rnd (11863283 / 2 ^ 23 * (11863283 / 2 ^ 23)) := rnd_pos h0 hu (by norm_num)
  have h3 := hb _ (by linarith : 0 ≤ s.rnd (11863283 / 2 ^ 23 * (11863283 / 2 ^ 23)) / 2)
  have h4 : (11863283 / 2 ^ 23 * (11863283 / 2 ^ 23) * (1 + 1 / 2 ^ 30) / 2) * (1 + 1 / 2 ^ 30) < (1 : ℝ) := by norm_num
  nlinarith

/-- **C93** (orthogonal items).  The user factor is `(1, 0)` and the items are `(1, 0)` and `(0, 1)`.  Annoy answers single precision: the
distance between orthogonal vectors, √2, comes back as the nearest float.  The orthogonal item then has a positive score although the inner
product is 0. -/
theorem C93_orthogonal_violated (env : Env 2 ℝ) (s : Rounding ℝ) (h0 : s.η = 0) (hu : s.u ≤ 1 / 2 ^ 30) (norm : Vec 3 ℝ → ℝ)
    (hn : 0 < norm (appendZero ![1, 0])) :
    |(11863283 / 2 ^ 23 : ℝ) - Real.sqrt 2| ≤ 1 / 2 ^ 24 ∧ (∑ j, (![1, 0] : Vec 2 ℝ) j * (![0, 1] : Vec 2 ℝ) j) = 0 ∧
    ∃ a b : ℝ, 0 < b ∧ annRecommend env (fun _ k => [((0 : Int), (0 : ℝ)), (1, 11863283 / 2 ^ 23)].take k) norm 1 (roundAnnoyScore s) true
        ⟨[![1, 0]], [![1, 0], ![0, 1]], none, none, none, none⟩ (.one 0) (some [[]]) 2 false none false none =
      (.ok (.one [(0, a), (1, b)]), ⟨[![1, 0]], [![1, 0], ![0, 1]], none, none, none, none⟩) := by
  refine ⟨?_, by simp, _, _, annoyScore_sqrt_two h0 hu (mul_pos one_pos hn), rfl⟩
  have h1 : Real.sqrt 2 ≤ 11863283 / 2 ^ 23 + 1 / 2 ^ 24 := Real.sqrt_le_iff.mpr ⟨by norm_num, by norm_num⟩
  have h2 : 11863283 / 2 ^ 23 - 1 / 2 ^ 24 ≤ Real.sqrt 2 := Real.le_sqrt_of_sq_le (by norm_num)
  exact abs_le.mpr ⟨by linarith, by linarith⟩

/-! ## Examples -/

theorem Spec.IsRanking.near {N : Nat} {E : Nat → Prop} {score : Nat → Option ℝ} {out : List (Nat × ℝ)} (h : Spec.IsRanking N E score out) :
    Spec.NearRanking N E score 0 out := by
  refine ⟨fun p hp => ⟨(h.mem p hp).1, p.2, (h.mem p hp).2, by simp⟩, h.distinct, ?_, h.atMost, h.complete, fun i s hi hs hn p hp t ht => ?_⟩
  · refine h.sorted.imp_of_mem fun {a b} ha hb hab s t hs ht => ?_
    rw [(h.mem a ha).2] at hs
    rw [(h.mem b hb).2] at ht
    rw [← Option.some.inj hs, ← Option.some.inj ht]
    linarith
  · rw [(h.mem p hp).2] at ht
    rw [← Option.some.inj ht]
    linarith [h.best i s hi hs hn p hp]

/-- An exact search is one without error. -/
theorem nearIndex_of_nearest {n : Nat} {rows : List (Vec n ℝ)} {search : Vec n ℝ → Nat → List (Int × ℝ)}
    (h : Spec.NearestIndex Spec.angularDistance rows search) (q : Vec n ℝ) :
    Spec.NearIndex Spec.cosine (fun d => 1 - d ^ 2 / 2) 0 rows q (search q) := by
  intro k
  obtain ⟨out, h1, h2⟩ := h q k
  refine ⟨out, h1, ?_⟩
  have h3 := h2.mapScore (fun x => 1 - x ^ 2 / 2) ?_
  · rw [List.map_map] at h3
    have e : ((fun p : Nat × ℝ => (p.1, 1 - p.2 ^ 2 / 2)) ∘ fun p : Nat × ℝ => (p.1, -p.2)) = fun p : Nat × ℝ => (p.1, 1 - p.2 ^ 2 / 2) := by
      funext p
      simp
    rw [e] at h3
    refine (h3.congrScore fun i _ => ?_).near
    cases rows[i]? with
    | none => rfl
    | some y =>
      have := annoyScore_eq 1 q y
      unfold annoyScore at this
      simp only [Option.map_some, Option.some.injEq, neg_sq]
      linarith
  · intro i j a b _ _ ha hb hab
    obtain ⟨y, hy, rfl⟩ := Option.map_eq_some_iff.mp ha
    obtain ⟨z, hz, rfl⟩ := Option.map_eq_some_iff.mp hb
    have p1 : 0 ≤ Spec.angularDistance q z := Real.sqrt_nonneg _
    have := pow_le_pow_left₀ p1 (by linarith : Spec.angularDistance q z ≤ Spec.angularDistance q y) 2
    simp only [neg_sq]
    linarith

theorem biased_pow (x : ℝ) : |biased.rnd (x * x) - x ^ 2| ≤ biased.u * x ^ 2 := by
  have := rnd_rel biased rfl (x * x)
  rw [abs_of_nonneg (mul_self_nonneg x)] at this
  rwa [sq]

theorem biased_augments : ∃ M, ∃ ext : List (Vec 3 ℝ),
    roundAugment biased (fun x => biased.rnd (x * x)) (fun _ => .add (.leaf 0) (.leaf 1)) [![3, 0], ![0, 4]] = .ok (M, ext.map some) := by
  obtain ⟨M, ext, h, -⟩ := C93_no_nan (r := biased) (pow := fun x => biased.rnd (x * x)) (order := fun _ => .add (.leaf 0) (.leaf 1))
    (factors := [![3, 0], ![0, 4]])
    (fun a b hab => mul_le_mul_of_nonneg_right hab (by positivity)) (by simp [biased]) (fun _ => le_rfl) (by simp)
  exact ⟨M, ext, h⟩

/-- Two items on a machine whose results are too large: the rows of the index have equal lengths, up to rounding. -/
example : ∃ M, ∃ ext : List (Vec 3 ℝ),
    roundAugment biased (fun x => biased.rnd (x * x)) (fun _ => .add (.leaf 0) (.leaf 1)) [![3, 0], ![0, 4]] = .ok (M, ext.map some) ∧
    ∀ e ∈ ext, |Spec.length e - M| ≤ 3 * ((1 + biased.u) ^ 8 - 1) * M := by
  obtain ⟨M, ext, h⟩ := biased_augments
  exact ⟨M, ext, h, fun e he => C93_lengths h rfl biased_pow (fun _ => by unfold SumTree.Complete; decide) (by norm_num [biased]) he⟩

/-- Recommendations for `(1, 2)` on that machine, with an exact search. -/
example (env : Env 2 ℝ) (st : MFState 2 ℝ) (hst : st = ⟨[![1, 2]], [![3, 0], ![0, 4]], none, none, none, none⟩) : ∃ M search out,
    annRecommend env search (rowNorm biased (.add (.add (.leaf 0) (.leaf 1)) (.leaf 2))) M (roundAnnoyScore biased) true st (.one 0) (some [[]])
      1 false none false none = (.ok (.one (intRow out)), st) ∧
    Spec.NearRanking 1 (fun i => i < 2 ∧ i ∉ []) (fun i => ([![3, 0], ![0, 4]] : List (Vec 2 ℝ))[i]?.map fun y => ∑ j, (![1, 2] : Vec 2 ℝ) j * y j)
      (Spec.annError biased.u biased.u 0 2 M (Spec.length ![1, 2])) out := by
  obtain ⟨M, ext, h⟩ := biased_augments
  obtain ⟨search, hs⟩ := nearestIndex_exists Spec.angularDistance ext
  have hi : st.item = [![3, 0], ![0, 4]] := by rw [hst]
  obtain ⟨out, h1, h2⟩ := C93_annoy biased rfl (order := fun _ => .add (.leaf 0) (.leaf 1)) rfl biased_pow (fun _ => by unfold SumTree.Complete; decide) (by norm_num [biased])
    (by norm_num [biased]) env st (by rw [hi]; exact h) (t := .add (.add (.leaf 0) (.leaf 1)) (.leaf 2)) (by unfold SumTree.Complete; decide) le_rfl
    search 0 ![1, 2] (by rw [hst]; rfl) (nearIndex_of_nearest hs _) [] 1 false none (by simp [ListFilter])
  refine ⟨M, search, out, h1, ?_⟩
  rw [hi] at h2
  exact h2

end Implicit
