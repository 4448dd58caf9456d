import Verif.Model.Augment
import Verif.Props.C07
import Verif.Props.C42
import Mathlib.Algebra.BigOperators.Fin

/-!
# C41 — inner-product search reduces to angular search
-/

set_option linter.unusedSectionVars false

namespace Implicit

variable {f : Nat}

theorem dot_appendZero (q y : Vec f ℝ) (e : ℝ) :
    dot (appendZero q) (Fin.snoc (α := fun _ => ℝ) y e) = dot q y := by
  unfold dot appendZero
  rw [Fin.sum_univ_castSucc]
  simp

theorem dot_snoc_self (y : Vec f ℝ) (e : ℝ) :
    dot (Fin.snoc (α := fun _ => ℝ) y e : Vec (f + 1) ℝ) (Fin.snoc (α := fun _ => ℝ) y e) =
      dot y y + e ^ 2 := by
  unfold dot
  rw [Fin.sum_univ_castSucc]
  simp [sq]

theorem l2norm_appendZero (q : Vec f ℝ) : l2norm (appendZero q) = l2norm q := by
  unfold l2norm appendZero
  rw [dot_snoc_self]
  simp

theorem l2norm_sq (v : Vec f ℝ) : l2norm v ^ 2 = dot v v := Real.sq_sqrt (dot_self_nonneg v)

/-- A row that is no longer than `maxNorm` is augmented to length exactly `maxNorm`. -/
theorem l2norm_augmentRow {maxNorm : ℝ} {y : Vec f ℝ} (h : l2norm y ≤ maxNorm) :
    l2norm (augmentRow l2norm maxNorm y) = maxNorm := by
  have h0 : 0 ≤ maxNorm := (l2norm_nonneg y).trans h
  have h1 : 0 ≤ maxNorm ^ 2 - l2norm y ^ 2 := by
    have := pow_le_pow_left₀ (l2norm_nonneg y) h 2
    linarith
  show Real.sqrt (dot (augmentRow l2norm maxNorm y) (augmentRow l2norm maxNorm y)) = maxNorm
  unfold augmentRow
  rw [dot_snoc_self, Real.sq_sqrt h1, ← l2norm_sq]
  rw [show l2norm y ^ 2 + (maxNorm ^ 2 - l2norm y ^ 2) = maxNorm ^ 2 by ring]
  exact Real.sqrt_sq h0

theorem le_foldl_max (l : List ℝ) : ∀ (a : ℝ), a ≤ l.foldl max a ∧ ∀ x ∈ l, x ≤ l.foldl max a := by
  induction l with
  | nil => intro a; simp
  | cons b l ih =>
    intro a
    obtain ⟨h1, h2⟩ := ih (max a b)
    refine ⟨(le_max_left a b).trans h1, ?_⟩
    intro x hx
    rcases List.mem_cons.mp hx with rfl | hx
    · exact (le_max_right a x).trans h1
    · exact h2 x hx

theorem augment_spec {factors : List (Vec f ℝ)} {maxNorm : ℝ} {ext : List (Vec (f + 1) ℝ)}
    (h : augment l2norm factors = .ok (maxNorm, ext)) :
    ext = factors.map (augmentRow l2norm maxNorm) ∧ ∀ y ∈ factors, l2norm y ≤ maxNorm := by
  unfold augment at h
  cases factors with
  | nil => simp at h
  | cons y ys =>
    simp only [List.map_cons, Except.ok.injEq, Prod.mk.injEq] at h
    obtain ⟨rfl, rfl⟩ := h
    refine ⟨rfl, ?_⟩
    obtain ⟨h1, h2⟩ := le_foldl_max (ys.map l2norm) (l2norm y)
    intro z hz
    rcases List.mem_cons.mp hz with rfl | hz
    · exact h1
    · exact h2 _ (List.mem_map.mpr ⟨z, hz, rfl⟩)

/-- **C41** (success): augmentation works for every non-empty catalogue and keeps the item order. -/
theorem C41_augment_ok (factors : List (Vec f ℝ)) (h : factors ≠ []) :
    ∃ maxNorm ext, augment l2norm factors = .ok (maxNorm, ext) ∧ ext.length = factors.length ∧
      ∀ (i : Nat) y, factors[i]? = some y → ∃ e, ext[i]? = some e ∧ ∀ j : Fin f, e j.castSucc = y j := by
  cases factors with
  | nil => exact absurd rfl h
  | cons y ys =>
    refine ⟨_, _, rfl, by simp, ?_⟩
    intro i z hz
    refine ⟨_, by rw [List.getElem?_map, hz]; rfl, fun j => ?_⟩
    simp [augmentRow]

/-- **C41** (equal norms): all augmented rows have the same length, the largest length of a factor. -/
theorem C41_equal_norms (factors : List (Vec f ℝ)) (maxNorm : ℝ) (ext : List (Vec (f + 1) ℝ))
    (h : augment l2norm factors = .ok (maxNorm, ext)) :
    (∀ e ∈ ext, Spec.length e = maxNorm) ∧ (∃ y ∈ factors, Spec.length y = maxNorm) := by
  obtain ⟨rfl, hle⟩ := augment_spec h
  refine ⟨?_, ?_⟩
  · intro e he
    obtain ⟨y, hy, rfl⟩ := List.mem_map.mp he
    rw [← l2norm_eq]
    exact l2norm_augmentRow (hle y hy)
  · unfold augment at h
    cases factors with
    | nil => simp at h
    | cons y ys =>
      simp only [List.map_cons, Except.ok.injEq, Prod.mk.injEq] at h
      have key : ∀ (l : List (Vec f ℝ)) (a : Vec f ℝ), ∃ z ∈ a :: l,
          l2norm z = (l.map l2norm).foldl max (l2norm a) := by
        intro l
        induction l with
        | nil => intro a; exact ⟨a, by simp, rfl⟩
        | cons b l ih =>
          intro a
          simp only [List.map_cons, List.foldl_cons]
          rcases le_total (l2norm a) (l2norm b) with hab | hab
          · obtain ⟨z, hz, e⟩ := ih b
            rw [max_eq_right hab]
            exact ⟨z, List.mem_cons_of_mem _ hz, e⟩
          · obtain ⟨z, hz, e⟩ := ih a
            rw [max_eq_left hab]
            refine ⟨z, ?_, e⟩
            rcases List.mem_cons.mp hz with rfl | hz
            · simp
            · simp [hz]
      obtain ⟨z, hz, e⟩ := key ys y
      exact ⟨z, hz, by rw [← l2norm_eq, e, h.1]⟩

theorem scaled_cosine {maxNorm : ℝ} {y : Vec f ℝ} (h : l2norm y ≤ maxNorm) (q : Vec f ℝ) :
    maxNorm * l2norm (appendZero q) * Spec.cosine (appendZero q) (augmentRow l2norm maxNorm y) =
      dot q y := by
  rw [l2norm_appendZero]
  have hd : dot (appendZero q) (augmentRow l2norm maxNorm y) = dot q y := dot_appendZero _ _ _
  unfold Spec.cosine
  split_ifs with hz
  · rw [mul_zero, ← hd]
    rcases hz with hz | hz <;> rw [hz] <;> simp [dot]
  · push Not at hz
    rw [← l2norm_eq, ← l2norm_eq, ← dot_eq_sum, hd, l2norm_augmentRow h, l2norm_appendZero]
    have h1 : l2norm q ≠ 0 := by
      rw [← l2norm_appendZero]; exact (l2norm_pos hz.1).ne'
    have h2 : maxNorm ≠ 0 := by
      rw [← l2norm_augmentRow h]; exact (l2norm_pos hz.2).ne'
    field_simp

/-- **C41** (scores): scaling the cosine between the zero-extended query and an augmented row by
`max_norm * |query|` gives exactly the inner product of query and factor. -/
theorem C41_scores (factors : List (Vec f ℝ)) (maxNorm : ℝ) (ext : List (Vec (f + 1) ℝ))
    (h : augment l2norm factors = .ok (maxNorm, ext)) (q : Vec f ℝ) (i : Nat) (y : Vec f ℝ)
    (hy : factors[i]? = some y) :
    ∃ e, ext[i]? = some e ∧
      maxNorm * Spec.length (appendZero q) * Spec.cosine (appendZero q) e = ∑ j, q j * y j := by
  obtain ⟨rfl, hle⟩ := augment_spec h
  refine ⟨_, by rw [List.getElem?_map, hy]; rfl, ?_⟩
  rw [← l2norm_eq]
  exact scaled_cosine (hle y (List.mem_of_getElem? hy)) q

/-- **C41** (order): for a non-zero query and a catalogue with a non-zero item, ranking by angle is
ranking by inner product. -/
theorem C41_order (factors : List (Vec f ℝ)) (maxNorm : ℝ) (ext : List (Vec (f + 1) ℝ))
    (h : augment l2norm factors = .ok (maxNorm, ext)) (q : Vec f ℝ) (hq : q ≠ 0)
    (hpos : ∃ y ∈ factors, y ≠ 0) (i j : Nat) (y z : Vec f ℝ) (hy : factors[i]? = some y)
    (hz : factors[j]? = some z) (e e' : Vec (f + 1) ℝ) (he : ext[i]? = some e)
    (he' : ext[j]? = some e') :
    Spec.cosine (appendZero q) e ≤ Spec.cosine (appendZero q) e' ↔
      ∑ k, q k * y k ≤ ∑ k, q k * z k := by
  obtain ⟨d, hd, h1⟩ := C41_scores factors maxNorm ext h q i y hy
  obtain ⟨d', hd', h2⟩ := C41_scores factors maxNorm ext h q j z hz
  rw [he] at hd; cases hd
  rw [he'] at hd'; cases hd'
  have hm : 0 < maxNorm := by
    obtain ⟨w, hw, hne⟩ := hpos
    exact lt_of_lt_of_le (l2norm_pos hne) ((augment_spec h).2 w hw)
  have hq' : 0 < Spec.length (appendZero q) := by
    rw [← l2norm_eq, l2norm_appendZero]; exact l2norm_pos hq
  rw [← h1, ← h2]
  exact (mul_le_mul_iff_right₀ (mul_pos hm hq')).symm

/-! ## The models with exact indexes -/

/-- Annoy's angular distance. -/
noncomputable def Spec.angularDistance {n : Nat} (x y : Vec n ℝ) : ℝ :=
  Real.sqrt (2 * (1 - Spec.cosine x y))

/-- NMSLib's cosine distance. -/
noncomputable def Spec.cosineDistance {n : Nat} (x y : Vec n ℝ) : ℝ := 1 - Spec.cosine x y

/-- An exact nearest-neighbour index over `rows`: asked for `n` neighbours of `q` it returns the `n`
rows closest to `q`, closest first, with their distances. -/
def Spec.NearestIndex {n : Nat} (dist : Vec n ℝ → Vec n ℝ → ℝ) (rows : List (Vec n ℝ))
    (search : Vec n ℝ → Nat → List (Int × ℝ)) : Prop :=
  ∀ q k, ∃ out, search q k = intRow out ∧
    Spec.IsRanking k (fun i => i < rows.length) (fun i => (rows[i]?).map fun y => -dist q y)
      (out.map fun p => (p.1, -p.2))

theorem nearest_exactFor {dist : Vec (f + 1) ℝ → Vec (f + 1) ℝ → ℝ} {rows : List (Vec (f + 1) ℝ)}
    {search : Vec (f + 1) ℝ → Nat → List (Int × ℝ)} (h : Spec.NearestIndex dist rows search)
    (q : Vec (f + 1) ℝ) (g : ℝ → ℝ)
    (hg : ∀ y ∈ rows, ∀ z ∈ rows, dist q z ≤ dist q y → g (dist q y) ≤ g (dist q z)) :
    ExactFor rows.length (fun i => (rows[i]?).map fun y => g (dist q y)) g (search q) := by
  intro n
  obtain ⟨out, h1, h2⟩ := h q n
  refine ⟨out.map fun p => (p.1, g p.2), ?_, ?_⟩
  · rw [h1]
    unfold intRow
    rw [List.map_map, List.map_map]
    rfl
  · have h3 := h2.mapScore (fun x => g (-x)) ?_
    · rw [List.map_map] at h3
      have e : ((fun p : Nat × ℝ => (p.1, g (-p.2))) ∘ fun p : Nat × ℝ => (p.1, -p.2)) =
          fun p : Nat × ℝ => (p.1, g p.2) := by
        funext p
        simp
      rw [e] at h3
      refine h3.congrScore fun i _ => ?_
      cases rows[i]? <;> simp
    · intro i j a b _ _ ha hb hab
      obtain ⟨y, hy, rfl⟩ := Option.map_eq_some_iff.mp ha
      obtain ⟨z, hz, rfl⟩ := Option.map_eq_some_iff.mp hb
      rw [neg_neg, neg_neg]
      exact hg y (List.mem_of_getElem? hy) z (List.mem_of_getElem? hz) (by linarith)

theorem annoyScore_eq (scaling : ℝ) {n : Nat} (x y : Vec n ℝ) :
    annoyScore scaling (Spec.angularDistance x y) = scaling * Spec.cosine x y := by
  unfold annoyScore Spec.angularDistance
  have := (abs_le.mp (cosine_abs_le_one x y)).2
  rw [Real.sq_sqrt (by linarith)]
  ring

theorem exactFor_congr {items : Nat} {score score' : Nat → Option ℝ} {g : ℝ → ℝ}
    {answer : Nat → List (Int × ℝ)} (h : ExactFor items score g answer)
    (hs : ∀ i < items, score i = score' i) : ExactFor items score' g answer := by
  intro n
  obtain ⟨out, h1, h2⟩ := h n
  exact ⟨out, h1, h2.congrScore hs⟩

theorem scaling_nonneg {factors : List (Vec f ℝ)} {maxNorm : ℝ} {ext : List (Vec (f + 1) ℝ)}
    (h : augment l2norm factors = .ok (maxNorm, ext)) (q : Vec (f + 1) ℝ) :
    0 ≤ maxNorm * l2norm q := by
  obtain ⟨_, hle⟩ := augment_spec h
  cases factors with
  | nil => simp [augment] at h
  | cons y ys =>
    exact mul_nonneg ((l2norm_nonneg y).trans (hle y (by simp))) (l2norm_nonneg q)

/-- **C41** (Annoy).  With an exact angular index over the augmented factors, `recommend` returns the
`N` items with the largest inner products with the user factor, each with exactly its inner product,
among those not filtered. -/
theorem C41_annoy_recommend (env : Env f ℝ) (st : MFState f ℝ) (maxNorm : ℝ)
    (ext : List (Vec (f + 1) ℝ)) (haug : augment l2norm st.item = .ok (maxNorm, ext))
    (search : Vec (f + 1) ℝ → Nat → List (Int × ℝ))
    (hsearch : Spec.NearestIndex Spec.angularDistance ext search)
    (u : Nat) (user : Vec f ℝ) (hu : st.user[u]? = some user) (liked : List (Nat × ℝ)) (N : Nat)
    (fl : Bool) (fi : Option PyFilter) (hfi : ListFilter fi) :
    ∃ out, annRecommend env search l2norm maxNorm annoyScore true st (.one u) (some [liked]) N fl fi
        false none = (.ok (.one (intRow out)), st) ∧
      Spec.IsRanking N (fun i => i < st.item.length ∧ i ∉ banned fl liked fi)
        (fun i => (st.item[i]?).map fun y => ∑ j, user j * y j) out := by
  obtain ⟨he, hle⟩ := augment_spec haug
  have hlen : ext.length = st.item.length := by rw [he]; simp
  have hs := scaling_nonneg haug (appendZero user)
  refine C42_ann_recommend_exact_partial env search l2norm maxNorm annoyScore st u user hu
    st.item.length _ ?_ liked N fl fi hfi
  have hx := nearest_exactFor hsearch (appendZero user)
    (annoyScore (maxNorm * l2norm (appendZero user))) ?_
  · rw [hlen] at hx
    refine exactFor_congr hx fun i hi => ?_
    rw [he, List.getElem?_map, List.getElem?_eq_getElem hi]
    simp only [Option.map_some, Option.some.injEq]
    rw [annoyScore_eq, scaled_cosine (hle _ (List.getElem_mem hi))]
    rfl
  · intro y _ z _ hyz
    unfold annoyScore
    refine mul_le_mul_of_nonneg_left ?_ hs
    have h1 : (0 : ℝ) ≤ Spec.angularDistance (appendZero user) z := Real.sqrt_nonneg _
    have := pow_le_pow_left₀ h1 hyz 2
    linarith

/-- **C41** (NMSLib), with an exact cosine index. -/
theorem C41_nmslib_recommend (env : Env f ℝ) (st : MFState f ℝ) (maxNorm : ℝ)
    (ext : List (Vec (f + 1) ℝ)) (haug : augment l2norm st.item = .ok (maxNorm, ext))
    (search : Vec (f + 1) ℝ → Nat → List (Int × ℝ))
    (hsearch : Spec.NearestIndex Spec.cosineDistance ext search)
    (u : Nat) (user : Vec f ℝ) (hu : st.user[u]? = some user) (liked : List (Nat × ℝ)) (N : Nat)
    (fl : Bool) (fi : Option PyFilter) (hfi : ListFilter fi) :
    ∃ out, annRecommend env search l2norm maxNorm nmslibScore true st (.one u) (some [liked]) N fl fi
        false none = (.ok (.one (intRow out)), st) ∧
      Spec.IsRanking N (fun i => i < st.item.length ∧ i ∉ banned fl liked fi)
        (fun i => (st.item[i]?).map fun y => ∑ j, user j * y j) out := by
  obtain ⟨he, hle⟩ := augment_spec haug
  have hlen : ext.length = st.item.length := by rw [he]; simp
  have hs := scaling_nonneg haug (appendZero user)
  refine C42_ann_recommend_exact_partial env search l2norm maxNorm nmslibScore st u user hu
    st.item.length _ ?_ liked N fl fi hfi
  have hx := nearest_exactFor hsearch (appendZero user)
    (nmslibScore (maxNorm * l2norm (appendZero user))) ?_
  · rw [hlen] at hx
    refine exactFor_congr hx fun i hi => ?_
    rw [he, List.getElem?_map, List.getElem?_eq_getElem hi]
    simp only [Option.map_some, Option.some.injEq]
    unfold nmslibScore Spec.cosineDistance
    rw [sub_sub_cancel, scaled_cosine (hle _ (List.getElem_mem hi))]
    rfl
  · intro y _ z _ hyz
    unfold nmslibScore
    exact mul_le_mul_of_nonneg_left (by linarith) hs

/-- Exact indexes exist for every distance and every list of rows (linear search), so the hypotheses of
the two theorems above can be met. -/
theorem nearestIndex_exists {n : Nat} (dist : Vec n ℝ → Vec n ℝ → ℝ) (rows : List (Vec n ℝ)) :
    ∃ search, Spec.NearestIndex dist rows search := by
  refine ⟨fun q k => if k = 0 then [] else
    intRow ((sel insertionHeap k (rows.map fun y => -dist q y)).map fun p => (p.2, -p.1)), ?_⟩
  intro q k
  by_cases hk : k = 0
  · subst hk
    exact ⟨[], rfl, by simp, by simp, by simp, by simp, by simp, by simp⟩
  · have h := (plain_selection insertionHeap (Nat.one_le_iff_ne_zero.mpr hk)
      (rows.map fun y => -dist q y)).1
    refine ⟨_, if_neg hk, ?_⟩
    rw [List.map_map]
    have e : ((fun p : Nat × ℝ => (p.1, -p.2)) ∘ fun p : ℝ × Nat => (p.2, -p.1)) = Prod.swap := by
      funext p
      simp [Prod.swap]
    rw [e]
    simpa [List.getElem?_map] using h

/-- Augmenting the factors `(3, 0)` and `(0, 4)`: the first gets the extra coordinate `sqrt 7`. -/
example : ∃ ext, augment l2norm [![3, 0], ![0, 4]] = .ok (4, ext) ∧
    ∃ e, ext[0]? = some e ∧ e 2 = Real.sqrt 7 := by
  have h3 : l2norm ![3, 0] = 3 := by
    unfold l2norm dot
    rw [show (∑ j, (![3, 0] : Vec 2 ℝ) j * (![3, 0] : Vec 2 ℝ) j) = 3 ^ 2 by
      rw [Fin.sum_univ_two]; norm_num]
    exact Real.sqrt_sq (by norm_num)
  have h4 : l2norm ![0, 4] = 4 := by
    unfold l2norm dot
    rw [show (∑ j, (![0, 4] : Vec 2 ℝ) j * (![0, 4] : Vec 2 ℝ) j) = 4 ^ 2 by
      rw [Fin.sum_univ_two]; norm_num]
    exact Real.sqrt_sq (by norm_num)
  refine ⟨[![3, 0], ![0, 4]].map (augmentRow l2norm 4), ?_, ?_⟩
  · unfold augment
    simp only [List.map_cons, List.map_nil, h3, h4, List.foldl_cons, List.foldl_nil]
    rw [max_eq_right (by norm_num)]
  · refine ⟨_, rfl, ?_⟩
    show augmentRow l2norm 4 ![3, 0] (Fin.last 2) = _
    unfold augmentRow
    rw [Fin.snoc_last, h3]
    norm_num

end Implicit
