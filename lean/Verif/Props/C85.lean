import Verif.Lemmas.Feedback
import Verif.Props.C10
import Verif.Props.C13
import Verif.Props.C18
import Verif.Props.C19

/-!
# C85 — feedback moves ALS scores the right way, and regularisation bounds them

Real arithmetic; the direct solver behind `recalculate_user`, `partial_fit_users` and
`recommend(recalculate_user=True)`.  `x` and `x'` are the answers of two recalculations whose rows
differ in one column `i`.
-/

namespace Implicit

variable {R : Type} [LinearOrder R] [Field R] [IsStrictOrderedRing R] {f : Nat}

open Spec (ValidRow score SameExcept Towards StrictlyTowards)

/-! ## One cell -/

theorem pull_same {row row' : List (Nat × R)} {i : Nat} {g s' : R}
    (h : Spec.preference row i = g) (h' : Spec.preference row' i = g) :
    pull row row' i s' = (Spec.confidence row' i - Spec.confidence row i) * (g - s') := by
  unfold pull; rw [h, h']; ring

/-- More confidence in an unchanged preference. -/
theorem towards_of_confidence {Y : List (Vec f R)} {row row' : List (Nat × R)} {reg : R}
    (hreg : 0 < reg) {x x' : Vec f R} (hx : Spec.NormalEquations Y row reg x)
    (hx' : Spec.NormalEquations Y row' reg x') {i : Nat} (hi : i < Y.length)
    (hs : SameExcept i row row') {g : R} (h : Spec.preference row i = g)
    (h' : Spec.preference row' i = g) (hc : Spec.confidence row i ≤ Spec.confidence row' i) :
    Towards g (score Y x i) (score Y x' i) ∧
      (Spec.confidence row i < Spec.confidence row' i → Y[i] ≠ 0 → score Y x i ≠ g →
        StrictlyTowards g (score Y x i) (score Y x' i)) := by
  have h0 := step_nonneg hreg hx hx' hi hs
  rw [pull_same h h'] at h0
  set s := score Y x i
  set s' := score Y x' i
  have hT : Towards g s s' := by
    rcases hc.eq_or_lt with he | hlt
    · have h1 : pull row row' i s' = 0 := by rw [pull_same h h', he]; ring
      have h2 := (step_strict hreg hx hx' hi hs (.inl h1)).1
      have h3 : s' = s := by show score Y x' i = score Y x i; rw [h2]
      rw [h3]
      rcases le_total s g with h4 | h4
      · exact .inl ⟨le_rfl, h4⟩
      · exact .inr ⟨h4, le_rfl⟩
    · have h1 : 0 ≤ (g - s') * (s' - s) := by
        have h2 : 0 < Spec.confidence row' i - Spec.confidence row i := by linarith
        by_contra hneg
        have := mul_neg_of_pos_of_neg h2 (not_le.mp hneg)
        rw [← mul_assoc] at this
        linarith
      rcases le_total s' g with h4 | h4
      · rcases h4.eq_or_lt with h5 | h5
        · rw [h5]
          rcases le_total s g with h6 | h6
          · exact .inl ⟨h6, le_rfl⟩
          · exact .inr ⟨le_rfl, h6⟩
        · refine .inl ⟨?_, h4⟩
          by_contra hlt'
          have := mul_neg_of_pos_of_neg (sub_pos.mpr h5) (sub_neg.mpr (not_le.mp hlt'))
          linarith
      · rcases h4.eq_or_lt with h5 | h5
        · rw [← h5]
          rcases le_total s g with h6 | h6
          · exact .inl ⟨h6, le_rfl⟩
          · exact .inr ⟨le_rfl, h6⟩
        · refine .inr ⟨h4, ?_⟩
          by_contra hlt'
          have := mul_neg_of_neg_of_pos (sub_neg.mpr h5) (sub_pos.mpr (not_le.mp hlt'))
          linarith
  refine ⟨hT, fun hlt hne hsg => ?_⟩
  have hd : Spec.confidence row' i - Spec.confidence row i ≠ 0 := by
    intro h; linarith
  have e1 : s' ≠ g := by
    intro e
    have h1 : pull row row' i s' = 0 := by rw [pull_same h h', e]; ring
    have h2 := (step_strict hreg hx hx' hi hs (.inl h1)).1
    have h3 : s' = s := by show score Y x' i = score Y x i; rw [h2]
    exact hsg (h3 ▸ e)
  have e2 : s' ≠ s := by
    intro e
    have h2 := (step_strict hreg hx hx' hi hs (.inr e)).2 hne
    have h2' : pull row row' i s' = 0 := h2
    rw [pull_same h h'] at h2'
    rcases mul_eq_zero.mp h2' with h3 | h3
    · exact hd h3
    · exact e1 (sub_eq_zero.mp h3).symm
  rcases hT with ⟨h1, h2⟩ | ⟨h1, h2⟩
  · exact .inl ⟨lt_of_le_of_ne h1 (Ne.symm e2), lt_of_le_of_ne h2 e1⟩
  · exact .inr ⟨lt_of_le_of_ne h1 (Ne.symm e1), lt_of_le_of_ne h2 e2⟩

theorem preference_scale_pos {a : R} (ha : 0 < a) {row : List (Nat × R)} {i : Nat} {c : R}
    (h : row.lookup i = some c) :
    Spec.preference (row.map fun e => (e.1, a * e.2)) i = if 0 < c then 1 else 0 := by
  unfold Spec.preference
  rw [lookup_scale, h]
  simp only [Option.map_some, mul_pos_iff_of_pos_left ha]

theorem confidence_scale {a : R} {row : List (Nat × R)} {i : Nat} {c : R}
    (h : row.lookup i = some c) :
    Spec.confidence (row.map fun e => (e.1, a * e.2)) i = |a * c| := by
  unfold Spec.confidence
  rw [lookup_scale, h]
  rfl

theorem preference_scale_none {a : R} {row : List (Nat × R)} {i : Nat} (h : row.lookup i = none) :
    Spec.preference (row.map fun e => (e.1, a * e.2)) i = 0 := by
  unfold Spec.preference
  rw [lookup_scale, h]
  rfl

theorem confidence_scale_none {a : R} {row : List (Nat × R)} {i : Nat} (h : row.lookup i = none) :
    Spec.confidence (row.map fun e => (e.1, a * e.2)) i = 1 := by
  unfold Spec.confidence
  rw [lookup_scale, h]
  rfl

/-- The two recalculations that are compared: same model, rows that differ in column `i` at most. -/
structure Recalculated (env : Env f R) (st : MFState f R) (i : Nat) (row row' : List (Nat × R))
    (x x' : Vec f R) : Prop where
  reg : 0 < env.p.regularization
  alpha : 0 < env.p.alpha
  coherent : Coherent env st
  valid : ValidRow st.item.length row
  valid' : ValidRow st.item.length row'
  item : i < st.item.length
  same : SameExcept i row row'
  before : ∃ id, (recalculateUser env st (.one id) [row]).1 = .ok [x]
  after : ∃ id, (recalculateUser env st (.one id) [row']).1 = .ok [x']

/-- **C85** (more confidence).  Storing a larger positive value for an item moves its score towards 1,
storing a more negative one moves it towards 0; without passing the goal, and strictly unless the score
is there already or the item's factor is zero. -/
theorem C85_more_confidence {env : Env f R} {st : MFState f R} {i : Nat} {row row' : List (Nat × R)}
    {x x' : Vec f R} (H : Recalculated env st i row row' x x') {c c' : R}
    (h : row.lookup i = some c) (h' : row'.lookup i = some c') :
    (0 < c → c ≤ c' → Towards 1 (score st.item x i) (score st.item x' i) ∧
      (c < c' → st.item[i]'H.item ≠ 0 → score st.item x i ≠ 1 →
        StrictlyTowards 1 (score st.item x i) (score st.item x' i))) ∧
    (c ≤ 0 → c' ≤ c → Towards 0 (score st.item x i) (score st.item x' i) ∧
      (c' < c → st.item[i]'H.item ≠ 0 → score st.item x i ≠ 0 →
        StrictlyTowards 0 (score st.item x i) (score st.item x' i))) := by
  obtain ⟨_, hb⟩ := H.before
  obtain ⟨_, ha⟩ := H.after
  have hx := (recalculated_equations H.reg H.coherent H.valid hb).1
  have hx' := (recalculated_equations H.reg H.coherent H.valid' ha).1
  have hs := sameExcept_scale H.same env.p.alpha
  have hp := preference_scale_pos H.alpha h
  have hp' := preference_scale_pos H.alpha h'
  have hc := confidence_scale (a := env.p.alpha) h
  have hc' := confidence_scale (a := env.p.alpha) h'
  have hal := H.alpha
  constructor
  · intro h0 hle
    rw [if_pos h0] at hp
    rw [if_pos (h0.trans_le hle)] at hp'
    rw [abs_of_pos (mul_pos hal h0)] at hc
    rw [abs_of_pos (mul_pos hal (h0.trans_le hle))] at hc'
    have := towards_of_confidence H.reg hx hx' H.item hs hp hp'
      (by rw [hc, hc']; exact mul_le_mul_of_nonneg_left hle hal.le)
    refine ⟨this.1, fun hlt => this.2 ?_⟩
    rw [hc, hc']; exact mul_lt_mul_of_pos_left hlt hal
  · intro h0 hle
    rw [if_neg (not_lt.mpr h0)] at hp
    rw [if_neg (not_lt.mpr (hle.trans h0))] at hp'
    rw [abs_of_nonpos (mul_nonpos_of_nonneg_of_nonpos hal.le h0)] at hc
    rw [abs_of_nonpos (mul_nonpos_of_nonneg_of_nonpos hal.le (hle.trans h0))] at hc'
    have := towards_of_confidence H.reg hx hx' H.item hs hp hp'
      (by rw [hc, hc']; exact neg_le_neg (mul_le_mul_of_nonneg_left hle hal.le))
    refine ⟨this.1, fun hlt => this.2 ?_⟩
    rw [hc, hc']; exact neg_lt_neg (mul_lt_mul_of_pos_left hlt hal)

/-- **C85** (dislike).  Storing a negative value of weight at least 1 for an item without one moves its
score towards 0. -/
theorem C85_dislike {env : Env f R} {st : MFState f R} {i : Nat} {row row' : List (Nat × R)}
    {x x' : Vec f R} (H : Recalculated env st i row row' x x') {c : R}
    (h : row.lookup i = none) (h' : row'.lookup i = some c) (hc : env.p.alpha * c ≤ -1) :
    Towards 0 (score st.item x i) (score st.item x' i) ∧
      (env.p.alpha * c < -1 → st.item[i]'H.item ≠ 0 → score st.item x i ≠ 0 →
        StrictlyTowards 0 (score st.item x i) (score st.item x' i)) := by
  obtain ⟨_, hb⟩ := H.before
  obtain ⟨_, ha⟩ := H.after
  have hx := (recalculated_equations H.reg H.coherent H.valid hb).1
  have hx' := (recalculated_equations H.reg H.coherent H.valid' ha).1
  have hs := sameExcept_scale H.same env.p.alpha
  have hp' := preference_scale_pos H.alpha h'
  have hcneg : ¬ 0 < c := by
    intro h0
    have := mul_pos H.alpha h0
    linarith
  rw [if_neg hcneg] at hp'
  have hc' := confidence_scale (a := env.p.alpha) h'
  rw [abs_of_nonpos (by linarith)] at hc'
  have := towards_of_confidence H.reg hx hx' H.item hs
    (preference_scale_none (a := env.p.alpha) h) hp'
    (by rw [confidence_scale_none h, hc']; linarith)
  refine ⟨this.1, fun hlt => this.2 ?_⟩
  rw [confidence_scale_none h, hc']; linarith

/-- **C85** (like).  Liking an item with weight at least 1 raises its score, unless the score was above
1 already. -/
theorem C85_like {env : Env f R} {st : MFState f R} {i : Nat} {row row' : List (Nat × R)}
    {x x' : Vec f R} (H : Recalculated env st i row row' x x') {c : R}
    (h : row.lookup i = none) (h' : row'.lookup i = some c) (hc : 1 ≤ env.p.alpha * c)
    (h1 : score st.item x i ≤ 1) :
    score st.item x i ≤ score st.item x' i ∧
      (st.item[i]'H.item ≠ 0 → score st.item x i < score st.item x' i) := by
  obtain ⟨_, hb⟩ := H.before
  obtain ⟨_, ha⟩ := H.after
  have hx := (recalculated_equations H.reg H.coherent H.valid hb).1
  have hx' := (recalculated_equations H.reg H.coherent H.valid' ha).1
  have hs := sameExcept_scale H.same env.p.alpha
  have hp' := preference_scale_pos H.alpha h'
  have hc0 : 0 < c := by
    by_contra h0
    have := mul_nonpos_of_nonneg_of_nonpos H.alpha.le (not_lt.mp h0)
    linarith
  rw [if_pos hc0] at hp'
  have hc' := confidence_scale (a := env.p.alpha) h'
  rw [abs_of_pos (by linarith)] at hc'
  have hpull : ∀ s', pull (row.map fun e => (e.1, env.p.alpha * e.2))
      (row'.map fun e => (e.1, env.p.alpha * e.2)) i s' =
        1 + (env.p.alpha * c - 1) * (1 - s') := by
    intro s'
    unfold pull
    rw [hp', hc', preference_scale_none h, confidence_scale_none h]
    ring
  have h0 := step_nonneg H.reg hx hx' H.item hs
  rw [hpull] at h0
  have hstrict := step_strict H.reg hx hx' H.item hs
  simp only [hpull] at hstrict
  have hle : score st.item x i ≤ score st.item x' i := by
    by_contra hlt
    have h2 : 0 ≤ (env.p.alpha * c - 1) * (1 - score st.item x' i) :=
      mul_nonneg (by linarith) (by linarith)
    have := mul_neg_of_pos_of_neg
      (show 0 < 1 + (env.p.alpha * c - 1) * (1 - score st.item x' i) by linarith)
      (sub_neg.mpr (not_le.mp hlt))
    linarith
  refine ⟨hle, fun hne => lt_of_le_of_ne hle fun he => ?_⟩
  have h3 := (hstrict (.inr he.symm)).2 hne
  have h2 : 0 ≤ (env.p.alpha * c - 1) * (1 - score st.item x' i) :=
    mul_nonneg (by linarith) (by rw [← he]; linarith)
  linarith

/-- **C85** (change of mind).  Turning a like of some weight into a dislike of the same weight lowers
the score of the item. -/
theorem C85_change_of_mind {env : Env f R} {st : MFState f R} {i : Nat} {row row' : List (Nat × R)}
    {x x' : Vec f R} (H : Recalculated env st i row row' x x') {c : R} (hc : 0 < c)
    (h : row.lookup i = some c) (h' : row'.lookup i = some (-c)) :
    score st.item x' i ≤ score st.item x i ∧
      (st.item[i]'H.item ≠ 0 → score st.item x' i < score st.item x i) := by
  obtain ⟨_, hb⟩ := H.before
  obtain ⟨_, ha⟩ := H.after
  have hx := (recalculated_equations H.reg H.coherent H.valid hb).1
  have hx' := (recalculated_equations H.reg H.coherent H.valid' ha).1
  have hs := sameExcept_scale H.same env.p.alpha
  have hpos := mul_pos H.alpha hc
  have hpull : ∀ s', pull (row.map fun e => (e.1, env.p.alpha * e.2))
      (row'.map fun e => (e.1, env.p.alpha * e.2)) i s' = -(env.p.alpha * c) := by
    intro s'
    unfold pull
    rw [preference_scale_pos H.alpha h, preference_scale_pos H.alpha h', confidence_scale h,
      confidence_scale h', if_pos hc, if_neg (by linarith), mul_neg, abs_neg, abs_of_pos hpos]
    ring
  have h0 := step_nonneg H.reg hx hx' H.item hs
  rw [hpull] at h0
  have hle : score st.item x' i ≤ score st.item x i := by
    by_contra hlt
    have := mul_neg_of_neg_of_pos (neg_lt_zero.mpr hpos) (sub_pos.mpr (not_le.mp hlt))
    linarith
  refine ⟨hle, fun hne => lt_of_le_of_ne hle fun he => ?_⟩
  have h3 := (step_strict H.reg hx hx' H.item hs (.inr he)).2 hne
  rw [hpull] at h3
  linarith

/-! ## The other items -/

theorem weighted_unique {Y : List (Vec f R)} {row : List (Nat × R)} {reg : R} (hreg : 0 < reg)
    {y d w : Vec f R} {t : R} (hw : Spec.IsWeighted Y row reg y w)
    (hd : ∀ a, (∑ j : Fin Y.length, Spec.confidence row j * score Y d j * Y[j] a) + reg * d a =
      t * y a) : d = fun a => t * w a := by
  have hscore : ∀ j, score Y (d - fun a => t * w a) j = score Y d j - t * score Y w j := by
    intro j
    rw [score_sub]
    congr 1
    unfold score
    rw [Finset.mul_sum]
    exact Finset.sum_congr rfl fun a _ => by ring
  have h : ∀ a, (∑ j : Fin Y.length, Spec.confidence row j *
      score Y (d - fun a => t * w a) j * Y[j] a) + reg * (d - fun a => t * w a) a = 0 := by
    intro a
    have h1 := hd a
    have h2 := hw a
    simp only [← score_fin] at h2
    have h3 : (∑ j : Fin Y.length, Spec.confidence row j * score Y (d - fun a => t * w a) j * Y[j] a) =
        (∑ j : Fin Y.length, Spec.confidence row j * score Y d j * Y[j] a) -
          t * ∑ j : Fin Y.length, Spec.confidence row j * score Y w j * Y[j] a := by
      rw [Finset.mul_sum, ← Finset.sum_sub_distrib]
      exact Finset.sum_congr rfl fun j _ => by rw [hscore]; ring
    rw [h3, Pi.sub_apply]
    linear_combination h1 - t * h2
  have h0 : energy Y row reg (d - fun a => t * w a) = 0 := by
    rw [energy_of_equation (g := fun _ => 0) h]; simp
  have h1 := energy_ge Y row reg (d - fun a => t * w a)
  have h2 := sqLength_nonneg (d - fun a => t * w a)
  have h3 : Spec.sqLength (d - fun a => t * w a) = 0 := by
    by_contra hne
    have := mul_pos hreg (lt_of_le_of_ne h2 (Ne.symm hne))
    linarith
  exact sub_eq_zero.mp (sqLength_eq_zero.mp h3)

/-- **C85** (other items).  With the weights `w` that `explain` uses for item `i` (the solution of the
user's system for the factor of `i`), every change of the entry of `i` changes the score of *every*
item `j` by the same multiple of `score j` under `w`; if the item is liked (or disliked) before and
after, its own distance to the goal shrinks by the factor `1 + (change of confidence) * (score of i
under w)`. -/
theorem C85_others {env : Env f R} {st : MFState f R} {i : Nat} {row row' : List (Nat × R)}
    {x x' : Vec f R} (H : Recalculated env st i row row' x x') {w : Vec f R}
    (hw : Spec.IsWeighted st.item (row.map fun e => (e.1, env.p.alpha * e.2)) env.p.regularization
      (st.item[i]'H.item) w) :
    0 ≤ score st.item w i ∧
    (∃ t, ∀ j, score st.item x' j = score st.item x j + t * score st.item w j) ∧
    ∀ c c', row.lookup i = some c → row'.lookup i = some c' →
      (0 < c → 0 < c' → (1 - score st.item x' i) *
        (1 + env.p.alpha * (c' - c) * score st.item w i) = 1 - score st.item x i) ∧
      (c ≤ 0 → c' ≤ 0 → score st.item x' i *
        (1 + env.p.alpha * (c - c') * score st.item w i) = score st.item x i) := by
  obtain ⟨_, hb⟩ := H.before
  obtain ⟨_, ha⟩ := H.after
  have hx := (recalculated_equations H.reg H.coherent H.valid hb).1
  have hx' := (recalculated_equations H.reg H.coherent H.valid' ha).1
  have hs := sameExcept_scale H.same env.p.alpha
  have hd := weighted_unique H.reg hw (step_equation hx hx' H.item hs)
  set row₁ := row.map fun e => (e.1, env.p.alpha * e.2) with hr1
  set row₂ := row'.map fun e => (e.1, env.p.alpha * e.2) with hr2
  have hall : ∀ j, score st.item x' j =
      score st.item x j + pull row₁ row₂ i (score st.item x' i) * score st.item w j := by
    intro j
    have h1 := score_sub st.item x x' j
    rw [hd] at h1
    have h2 : score st.item (fun a => pull row₁ row₂ i (score st.item x' i) * w a) j =
        pull row₁ row₂ i (score st.item x' i) * score st.item w j := by
      unfold score
      rw [Finset.mul_sum]
      exact Finset.sum_congr rfl fun a _ => by ring
    rw [h2] at h1
    linarith
  refine ⟨?_, ⟨_, hall⟩, fun c c' h h' => ⟨fun hc hc' => ?_, fun hc hc' => ?_⟩⟩
  · have h1 := energy_of_equation (Y := st.item) (row := row₁) (reg := env.p.regularization) (d := w)
      (g := st.item[i]'H.item) (by
        intro a
        have := hw a
        simp only [← score_fin] at this
        exact this)
    have h2 : score st.item w i = ∑ a, w a * (st.item[i]'H.item) a :=
      score_fin st.item w ⟨i, H.item⟩
    rw [h2, ← h1]
    exact energy_nonneg _ _ H.reg _
  · have h1 := hall i
    rw [pull_same (g := 1) (by rw [hr1, preference_scale_pos H.alpha h, if_pos hc])
      (by rw [hr2, preference_scale_pos H.alpha h', if_pos hc']), hr1, hr2, confidence_scale h,
      confidence_scale h', abs_of_pos (mul_pos H.alpha hc), abs_of_pos (mul_pos H.alpha hc')] at h1
    linear_combination -h1
  · have h1 := hall i
    rw [pull_same (g := 0) (by rw [hr1, preference_scale_pos H.alpha h, if_neg (not_lt.mpr hc)])
      (by rw [hr2, preference_scale_pos H.alpha h', if_neg (not_lt.mpr hc')]), hr1, hr2,
      confidence_scale h, confidence_scale h',
      abs_of_nonpos (mul_nonpos_of_nonneg_of_nonpos H.alpha.le hc),
      abs_of_nonpos (mul_nonpos_of_nonneg_of_nonpos H.alpha.le hc')] at h1
    linear_combination h1

/-- **C85** (influence).  One changed entry moves the user's factor by no more than its pull allows:
`reg * |x' - x| ≤ (change of confidence) * |goal - old score| * |factor of the item|`, here squared. -/
theorem C85_influence {env : Env f R} {st : MFState f R} {i : Nat} {row row' : List (Nat × R)}
    {x x' : Vec f R} (H : Recalculated env st i row row' x x') {c c' : R}
    (h : row.lookup i = some c) (h' : row'.lookup i = some c') :
    (0 < c → c ≤ c' →
      env.p.regularization ^ 2 * Spec.sqLength (x' - x) ≤
        (env.p.alpha * (c' - c) * (1 - score st.item x i)) ^ 2 *
          Spec.sqLength (st.item[i]'H.item)) ∧
    (c ≤ 0 → c' ≤ c →
      env.p.regularization ^ 2 * Spec.sqLength (x' - x) ≤
        (env.p.alpha * (c - c') * score st.item x i) ^ 2 * Spec.sqLength (st.item[i]'H.item)) := by
  obtain ⟨_, hb⟩ := H.before
  obtain ⟨_, ha⟩ := H.after
  have hx := (recalculated_equations H.reg H.coherent H.valid hb).1
  have hx' := (recalculated_equations H.reg H.coherent H.valid' ha).1
  have hs := sameExcept_scale H.same env.p.alpha
  set row₁ := row.map fun e => (e.1, env.p.alpha * e.2) with hr1
  set row₂ := row'.map fun e => (e.1, env.p.alpha * e.2) with hr2
  have hmain : env.p.regularization ^ 2 * Spec.sqLength (x' - x) ≤
      pull row₁ row₂ i (score st.item x' i) ^ 2 * Spec.sqLength (st.item[i]'H.item) := by
    have h1 := energy_ge st.item row₁ env.p.regularization (x' - x)
    rw [step_energy hx hx' H.item hs, ← score_sub,
      score_fin st.item (x' - x) ⟨i, H.item⟩] at h1
    set p := pull row₁ row₂ i (score st.item x' i)
    set L := Spec.sqLength (x' - x) with hL
    have hL0 : 0 ≤ L := sqLength_nonneg _
    rcases hL0.eq_or_lt with h0 | h0
    · rw [← h0, mul_zero]
      exact mul_nonneg (sq_nonneg _) (sqLength_nonneg _)
    · have hcs := Finset.sum_mul_sq_le_sq_mul_sq Finset.univ (x' - x) (st.item[i]'H.item)
      have hcs' : (∑ j, (x' - x) j * (st.item[i]'H.item) j) ^ 2 ≤
          L * Spec.sqLength (st.item[i]'H.item) := hcs
      set D := ∑ j, (x' - x) j * (st.item[i]'H.item) j
      have h1' : env.p.regularization * L ≤ p * D := h1
      have h2 : (env.p.regularization * L) ^ 2 ≤ (p * D) ^ 2 :=
        pow_le_pow_left₀ (mul_nonneg H.reg.le hL0) h1' 2
      have h3 : (p * D) ^ 2 ≤ p ^ 2 * (L * Spec.sqLength (st.item[i]'H.item)) := by
        rw [mul_pow]; exact mul_le_mul_of_nonneg_left hcs' (sq_nonneg _)
      have h4 : L * (env.p.regularization ^ 2 * L) ≤
          L * (p ^ 2 * Spec.sqLength (st.item[i]'H.item)) := by
        calc _ = (env.p.regularization * L) ^ 2 := by ring
          _ ≤ _ := h2.trans h3
          _ = _ := by ring
      exact le_of_mul_le_mul_left h4 h0
  have hsq : ∀ {k a b : R}, |b| ≤ |a| → (k * b) ^ 2 ≤ (k * a) ^ 2 := by
    intro k a b hab
    rw [mul_pow, mul_pow]
    exact mul_le_mul_of_nonneg_left (sq_le_sq.mpr hab) (sq_nonneg _)
  constructor
  · intro hc hle
    refine hmain.trans (mul_le_mul_of_nonneg_right ?_ (sqLength_nonneg _))
    rw [pull_same (g := 1) (by rw [hr1, preference_scale_pos H.alpha h, if_pos hc])
      (by rw [hr2, preference_scale_pos H.alpha h', if_pos (hc.trans_le hle)]), hr1, hr2,
      confidence_scale h, confidence_scale h', abs_of_pos (mul_pos H.alpha hc),
      abs_of_pos (mul_pos H.alpha (hc.trans_le hle)), ← mul_sub]
    apply hsq
    rcases ((C85_more_confidence H h h').1 hc hle).1 with ⟨h1, h2⟩ | ⟨h1, h2⟩
    · rw [abs_of_nonneg (by linarith), abs_of_nonneg (by linarith)]; linarith
    · rw [abs_of_nonpos (by linarith), abs_of_nonpos (by linarith)]; linarith
  · intro hc hle
    refine hmain.trans (mul_le_mul_of_nonneg_right ?_ (sqLength_nonneg _))
    rw [pull_same (g := 0) (by rw [hr1, preference_scale_pos H.alpha h, if_neg (not_lt.mpr hc)])
      (by rw [hr2, preference_scale_pos H.alpha h', if_neg (not_lt.mpr (hle.trans hc))]), hr1, hr2,
      confidence_scale h, confidence_scale h',
      abs_of_nonpos (mul_nonpos_of_nonneg_of_nonpos H.alpha.le hc),
      abs_of_nonpos (mul_nonpos_of_nonneg_of_nonpos H.alpha.le (hle.trans hc))]
    have e : -(env.p.alpha * c') - -(env.p.alpha * c) = env.p.alpha * (c - c') := by ring
    rw [e]
    apply hsq
    rw [zero_sub, abs_neg]
    rcases ((C85_more_confidence H h h').2 hc hle).1 with ⟨h1, h2⟩ | ⟨h1, h2⟩
    · rw [abs_of_nonpos (by linarith), abs_of_nonpos (by linarith)]; linarith
    · rw [abs_of_nonneg (by linarith), abs_of_nonneg (by linarith)]; linarith

/-! ## Size of the factors and scores -/

theorem liked_eq {n : Nat} {row : List (Nat × R)} (hv : ValidRow n row) :
    ∑ j : Fin n, Spec.confidence row j * Spec.preference row j = Spec.liked row := by
  have h := sum_lookup row hv.nodup hv.lt fun _ o =>
    (match o with | none => 1 | some c => |c|) *
      (match o with | none => 0 | some c => if 0 < c then (1 : R) else 0)
  refine Eq.trans h ?_
  unfold Spec.liked
  simp only [mul_zero, Finset.sum_const_zero, zero_add, sub_zero]
  congr 1
  refine List.map_congr_left fun e _ => ?_
  split_ifs with hc
  · rw [abs_of_pos hc, mul_one]
  · rw [mul_zero]

theorem likedScore_eq {Y : List (Vec f R)} {row : List (Nat × R)} (hv : ValidRow Y.length row)
    (x : Vec f R) :
    ∑ j : Fin Y.length, Spec.confidence row j * Spec.preference row j * score Y x j =
      Spec.likedScore Y row x := by
  have h := sum_lookup row hv.nodup hv.lt fun j o =>
    (match o with | none => 1 | some c => |c|) *
      (match o with | none => 0 | some c => if 0 < c then (1 : R) else 0) * score Y x j
  refine Eq.trans h ?_
  unfold Spec.likedScore
  simp only [mul_zero, zero_mul, Finset.sum_const_zero, zero_add, sub_zero]
  congr 1
  refine List.map_congr_left fun e _ => ?_
  split_ifs with hc
  · rw [abs_of_pos hc, mul_one]
  · rw [mul_zero, zero_mul]

theorem rowLoss_split (Y : List (Vec f R)) (row : List (Nat × R)) (reg : R) (x : Vec f R) :
    Spec.rowLoss Y row reg x = Spec.dataLoss Y row x + reg * Spec.sqLength x := by
  unfold Spec.rowLoss Spec.dataLoss Spec.sqLength
  simp only [score_fin]

/-- At the solution the loss is what the liked items weigh minus what they score. -/
theorem loss_identity {Y : List (Vec f R)} {row : List (Nat × R)} (hv : ValidRow Y.length row)
    {reg : R} {x : Vec f R} (hx : Spec.NormalEquations Y row reg x) :
    Spec.dataLoss Y row x + reg * Spec.sqLength x = Spec.liked row - Spec.likedScore Y row x ∧
      energy Y row reg x = Spec.likedScore Y row x := by
  have h1 : energy Y row reg x = Spec.likedScore Y row x := by
    rw [energy_of_equation (g := fun a =>
      ∑ j : Fin Y.length, Spec.confidence row j * Spec.preference row j * Y[j] a)
      ((normalEquations_score Y row reg x).mp hx), ← likedScore_eq hv]
    simp only [Finset.mul_sum]
    rw [Finset.sum_comm]
    refine Finset.sum_congr rfl fun j _ => ?_
    rw [score_fin, Finset.mul_sum]
    exact Finset.sum_congr rfl fun a _ => by ring
  refine ⟨?_, h1⟩
  have h2 : Spec.dataLoss Y row x =
      (∑ j : Fin Y.length, Spec.confidence row j * Spec.preference row j) -
      2 * (∑ j : Fin Y.length, Spec.confidence row j * Spec.preference row j * score Y x j) +
      ∑ j : Fin Y.length, Spec.confidence row j * score Y x j ^ 2 := by
    unfold Spec.dataLoss
    rw [Finset.mul_sum, ← Finset.sum_sub_distrib, ← Finset.sum_add_distrib]
    refine Finset.sum_congr rfl fun j _ => ?_
    rcases preference_cases row j.1 with h | h <;> rw [h] <;> ring
  rw [h2, liked_eq hv, likedScore_eq hv]
  unfold energy at h1
  linarith

theorem dataLoss_nonneg (Y : List (Vec f R)) (row : List (Nat × R)) (x : Vec f R) :
    0 ≤ Spec.dataLoss Y row x :=
  Finset.sum_nonneg fun j _ => mul_nonneg (cellWeight_nonneg row j) (sq_nonneg _)

/-- What the data allow a solution of the normal equations to be. -/
theorem solution_bounds {Y : List (Vec f R)} {row : List (Nat × R)} (hv : ValidRow Y.length row)
    {reg : R} (hreg : 0 < reg) {x : Vec f R} (hx : Spec.NormalEquations Y row reg x) :
    reg * Spec.sqLength x ≤ Spec.liked row ∧ 0 ≤ Spec.likedScore Y row x ∧
      Spec.likedScore Y row x ≤ Spec.liked row ∧
      (Spec.likedScore Y row x = 0 → x = 0) ∧
      ∀ j, j < Y.length → Spec.confidence row j * (Spec.preference row j - score Y x j) ^ 2 +
        reg * Spec.sqLength x ≤ Spec.liked row := by
  obtain ⟨h1, h2⟩ := loss_identity hv hx
  have h3 := dataLoss_nonneg Y row x
  have h4 := energy_nonneg Y row hreg x
  have h5 := mul_nonneg hreg.le (sqLength_nonneg x)
  refine ⟨by linarith, by linarith, by linarith, fun h0 => ?_, fun j hj => ?_⟩
  · have h6 := energy_ge Y row reg x
    apply sqLength_eq_zero.mp
    by_contra hne
    have := mul_pos hreg (lt_of_le_of_ne (sqLength_nonneg x) (Ne.symm hne))
    linarith
  · have h6 : Spec.confidence row j * (Spec.preference row j - score Y x j) ^ 2 ≤
        Spec.dataLoss Y row x :=
      Finset.single_le_sum (f := fun j : Fin Y.length =>
        Spec.confidence row j * (Spec.preference row j - score Y x j) ^ 2)
        (fun j _ => mul_nonneg (cellWeight_nonneg row j) (sq_nonneg _))
        (Finset.mem_univ (⟨j, hj⟩ : Fin Y.length))
    linarith

/-- **C85** (bounds).  With `w` the weight of all likes (times `alpha`): the squared length of a
recalculated factor is at most `w / regularization`; the weighted sum of the scores of the liked items
is between 0 and `w` (so their weighted mean is in [0, 1]), and 0 only for the zero factor; an item
without entry has a squared score of at most `w`; a liked one is at most `w / confidence` (squared)
away from 1. -/
theorem C85_bounds (env : Env f R) (hreg : 0 < env.p.regularization) (st : MFState f R)
    (hst : Coherent env st) (id : Nat) (row : List (Nat × R)) (hv : ValidRow st.item.length row)
    (x : Vec f R) (h : (recalculateUser env st (.one id) [row]).1 = .ok [x]) :
    let r := row.map fun e => (e.1, env.p.alpha * e.2)
    env.p.regularization * Spec.sqLength x ≤ Spec.liked r ∧
    0 ≤ Spec.likedScore st.item r x ∧ Spec.likedScore st.item r x ≤ Spec.liked r ∧
    (Spec.likedScore st.item r x = 0 → x = 0) ∧
    (∀ j, j < st.item.length → row.lookup j = none → score st.item x j ^ 2 ≤ Spec.liked r) ∧
    ∀ j c, row.lookup j = some c → 0 < env.p.alpha * c →
      env.p.alpha * c * (1 - score st.item x j) ^ 2 ≤ Spec.liked r := by
  intro r
  have hvr := validRow_scale hv env.p.alpha
  obtain ⟨h1, h2, h3, h4, h5⟩ := solution_bounds hvr hreg
    (recalculated_equations hreg hst hv h).1
  have h6 := mul_nonneg hreg.le (sqLength_nonneg x)
  refine ⟨h1, h2, h3, h4, fun j hj hn => ?_, fun j c hc hpos => ?_⟩
  · have := h5 j hj
    rw [confidence_scale_none hn, preference_scale_none hn] at this
    show score st.item x j ^ 2 ≤ Spec.liked (row.map fun e => (e.1, env.p.alpha * e.2))
    nlinarith
  · have hj : j < st.item.length := by
      obtain ⟨p, hp, e⟩ := List.lookup_eq_some_iff.mp hc |>.imp fun l h => h.imp fun _ h => h
      exact hv.lt (j, c) (by rw [e.1]; simp)
    have := h5 j hj
    have hp : Spec.preference (row.map fun e => (e.1, env.p.alpha * e.2)) j = 1 := by
      unfold Spec.preference
      rw [lookup_scale, hc]
      simp only [Option.map_some, if_pos hpos]
    rw [confidence_scale hc, hp, abs_of_pos hpos] at this
    show _ ≤ Spec.liked (row.map fun e => (e.1, env.p.alpha * e.2))
    linarith

/-- **C85** (regularisation).  Two models that differ in `regularization` only, asked to recalculate
the same user: the larger one gives the shorter factor, the larger loss on the data and the smaller
weighted sum of the scores of the liked items; strictly, unless the factor is zero. -/
theorem C85_regularisation (env env' : Env f R) (hreg : 0 < env.p.regularization)
    (hlt : env.p.regularization < env'.p.regularization) (hal : env'.p.alpha = env.p.alpha)
    (st : MFState f R) (hst : Coherent env st) (hst' : Coherent env' st) (id id' : Nat)
    (row : List (Nat × R)) (hv : ValidRow st.item.length row) (x x' : Vec f R)
    (h : (recalculateUser env st (.one id) [row]).1 = .ok [x])
    (h' : (recalculateUser env' st (.one id') [row]).1 = .ok [x']) :
    let r := row.map fun e => (e.1, env.p.alpha * e.2)
    (x = 0 ∧ x' = 0) ∨
    (Spec.sqLength x' < Spec.sqLength x ∧
      Spec.dataLoss st.item r x < Spec.dataLoss st.item r x' ∧
      Spec.likedScore st.item r x' < Spec.likedScore st.item r x) := by
  intro r
  have hreg' := hreg.trans hlt
  obtain ⟨e1, o1⟩ := recalculated_equations hreg hst hv h
  obtain ⟨e2, o2⟩ := recalculated_equations hreg' hst' hv h'
  rw [hal] at e2 o2
  change Spec.NormalEquations st.item r _ _ at e1 e2
  change Spec.IsOptimum st.item r _ _ at o1 o2
  have hvr : ValidRow st.item.length r := validRow_scale hv env.p.alpha
  by_cases hxx : x' = x
  · -- the same vector solves both systems
    have h0 : x = 0 := by
      funext a
      have h1 := e1 a
      have h2 := e2 a
      rw [hxx] at h2
      have : (env'.p.regularization - env.p.regularization) * x a = 0 := by linear_combination h2 - h1
      exact (mul_eq_zero.mp this).resolve_left (by linarith)
    exact .inl ⟨h0, hxx.trans h0⟩
  · right
    have a1 := o1 x' hxx
    have a2 := o2 x (Ne.symm hxx)
    rw [rowLoss_split, rowLoss_split] at a1 a2
    have hlen : Spec.sqLength x' < Spec.sqLength x := by
      by_contra hle
      have := mul_nonneg (sub_nonneg.mpr hlt.le) (sub_nonneg.mpr (not_lt.mp hle))
      nlinarith
    have hdata : Spec.dataLoss st.item r x < Spec.dataLoss st.item r x' := by
      have := mul_pos hreg (sub_pos.mpr hlen)
      nlinarith
    refine ⟨hlen, hdata, ?_⟩
    have i1 := (loss_identity hvr e1).1
    have i2 := (loss_identity hvr e2).1
    have : env.p.regularization * Spec.sqLength x' ≤ env'.p.regularization * Spec.sqLength x' :=
      mul_le_mul_of_nonneg_right hlt.le (sqLength_nonneg x')
    linarith

/-! ## Training -/

/-- **C85** (training, every solver).  At every iteration of `fit`, the sum of the squares of all
factors is at most the objective of the initial factors divided by the regularisation. -/
theorem C85_training (S : Solver f R) (tol : R) (p : ALSParams R) {reg : R} (hreg : 0 < reg)
    (C : SpRows R) (n : Nat) (m : Factors f R) (hC : C.length = m.user.length)
    (hv : ∀ row ∈ C, ValidRow m.item.length row) :
    ∃ trace, alsTrace (alsSolver S tol p) C (transposeRows m.item.length C) reg n m = .ok trace ∧
      trace.length = n ∧ ∀ m' ∈ trace,
        reg * (Spec.sqNorm m'.user + Spec.sqNorm m'.item) ≤
          Spec.objective C m.user m.item reg := by
  obtain ⟨trace, e, hl, hpw, _⟩ := C13_training S tol p hreg C n m hC hv
  refine ⟨trace, e, hl, fun m' hm' => ?_⟩
  refine le_trans ?_ ((List.pairwise_cons.mp hpw).1 m' hm')
  unfold Spec.objective
  have : 0 ≤ ∑ u : Fin m'.user.length, ∑ i : Fin m'.item.length,
      Spec.confidence (C[u.1]?.getD []) i *
        (Spec.preference (C[u.1]?.getD []) i - ∑ j, m'.user[u] j * m'.item[i] j) ^ 2 :=
    Finset.sum_nonneg fun u _ => Finset.sum_nonneg fun i _ =>
      mul_nonneg (cellWeight_nonneg _ _) (sq_nonneg _)
  linarith

/-- Every factor is at most as long as the likes of its row allow. -/
def FactorsBounded (C Ct : SpRows R) (reg : R) (m : Factors f R) : Prop :=
  (∀ (u : Nat) x row, m.user[u]? = some x → C[u]? = some row →
    reg * Spec.sqLength x ≤ Spec.liked row) ∧
  (∀ (i : Nat) y row, m.item[i]? = some y → Ct[i]? = some row →
    reg * Spec.sqLength y ≤ Spec.liked row)

theorem direct_sweep (S : Solver f R) (tol : R) (p : ALSParams R) (hp : p.useCg = false) {reg : R}
    (hreg : 0 < reg) (C : SpRows R) (X Y : List (Vec f R)) (hC : X.length ≤ C.length)
    (hv : ∀ row ∈ C, ValidRow Y.length row) :
    ∃ X', alsSolver S tol p C X Y reg = .ok X' ∧ X'.length = X.length ∧
      ∀ (u : Nat) x row, X'[u]? = some x → C[u]? = some row →
        reg * Spec.sqLength x ≤ Spec.liked row := by
  unfold alsSolver
  rw [hp]
  simp only [Bool.false_eq_true, if_false]
  split_ifs
  · obtain ⟨X', e, hl, h⟩ := C11_least_squares S C X Y hC hv hreg
    exact ⟨X', e, hl, fun u x row hx hr =>
      (solution_bounds (hv _ (List.mem_of_getElem? hr)) hreg (h u x row hx hr).1).1⟩
  · obtain ⟨X', e, hl, h⟩ := C11_least_squares_py S C X Y hC hv hreg
    exact ⟨X', e, hl, fun u x row hx hr =>
      (solution_bounds (hv _ (List.mem_of_getElem? hr)) hreg (h u x row hx hr).1).1⟩

/-- **C85** (training, direct solvers).  Whatever the initial factors, after every iteration the squared
length of every user and item factor is at most the weight of the likes of that user or item divided by
the regularisation. -/
theorem C85_direct (S : Solver f R) (tol : R) (p : ALSParams R) (hp : p.useCg = false) {reg : R}
    (hreg : 0 < reg) (C : SpRows R) (n : Nat) (m : Factors f R) (hC : C.length = m.user.length)
    (hv : ∀ row ∈ C, ValidRow m.item.length row) :
    ∃ trace, alsTrace (alsSolver S tol p) C (transposeRows m.item.length C) reg n m = .ok trace ∧
      trace.length = n ∧
      ∀ m' ∈ trace, FactorsBounded C (transposeRows m.item.length C) reg m' := by
  induction n generalizing m with
  | zero => exact ⟨[], rfl, rfl, by simp⟩
  | succ n ih =>
    obtain ⟨X', e1, hl1, h1⟩ := direct_sweep S tol p hp hreg C m.user m.item hC.ge hv
    have hv' := transpose_valid hv
    rw [hC, ← hl1] at hv'
    have hlen := transpose_length m.item.length C
    obtain ⟨Y', e2, hl2, h2⟩ := direct_sweep S tol p hp hreg (transposeRows m.item.length C) m.item X'
      hlen.ge hv'
    obtain ⟨trace, et, htl, hb⟩ := ih ⟨X', Y'⟩ (by simpa [hl1] using hC) (by simpa [hl2] using hv)
    refine ⟨⟨X', Y'⟩ :: trace, ?_, by simp [htl], ?_⟩
    · unfold alsTrace alsIteration
      rw [e1]
      simp only [bind, Except.bind]
      rw [e2]
      simp only [hl2] at et
      simp only [pure, Except.pure]
      rw [et]
    · intro m' hm'
      rcases List.mem_cons.mp hm' with rfl | hm'
      · exact ⟨h1, h2⟩
      · simp only [hl2] at hb
        exact hb m' hm'

/-- **C85** (scores after training with a direct solver): the squared score of user `u` and item `i` is
at most the product of the weights of their likes, divided by the squared regularisation. -/
theorem C85_direct_scores {C Ct : SpRows R} {reg : R} (hreg : 0 < reg) {m : Factors f R}
    (h : FactorsBounded C Ct reg m) {u i : Nat} {x y : Vec f R} {row col : List (Nat × R)}
    (hx : m.user[u]? = some x) (hy : m.item[i]? = some y) (hr : C[u]? = some row)
    (hc : Ct[i]? = some col) :
    (reg * score m.item x i) ^ 2 ≤ Spec.liked row * Spec.liked col := by
  have h1 := h.1 u x row hx hr
  have h2 := h.2 i y col hy hc
  have hs : score m.item x i = ∑ j, x j * y j := by unfold score; rw [hy]; rfl
  have hcs : (∑ j, x j * y j) ^ 2 ≤ Spec.sqLength x * Spec.sqLength y :=
    Finset.sum_mul_sq_le_sq_mul_sq Finset.univ x y
  calc (reg * score m.item x i) ^ 2 = reg ^ 2 * (∑ j, x j * y j) ^ 2 := by rw [hs]; ring
    _ ≤ reg ^ 2 * (Spec.sqLength x * Spec.sqLength y) :=
        mul_le_mul_of_nonneg_left hcs (sq_nonneg _)
    _ = (reg * Spec.sqLength x) * (reg * Spec.sqLength y) := by ring
    _ ≤ _ := mul_le_mul h1 h2 (mul_nonneg hreg.le (sqLength_nonneg _))
        ((mul_nonneg hreg.le (sqLength_nonneg _)).trans h1)

/-! ## The calls -/

/-- The scores that `recommend(recalculate_user=True)` reports are those of the recalculated factor. -/
theorem recommend_scores {env : Env f R} (hreg : 0 < env.p.regularization) {st : MFState f R}
    (hst : Coherent env st) {id i : Nat} {row : List (Nat × R)} (hv : ValidRow st.item.length row)
    (hi : i < st.item.length) {n : Nat} (hn : 1 ≤ n) (hn' : n ≤ st.item.length)
    {out : List (Nat × R)}
    (h : (runQuery env st (.recommend (.one id) (some [row]) n false none true none)).1 =
      .ok (.answer (.one out))) :
    ∃ x, (recalculateUser env st (.one id) [row]).1 = .ok [x] ∧
      ∀ s, (i, s) ∈ out → s = score st.item x i := by
  have hrow : (List.replicate (id + 1) row)[id]? = some row := by simp
  obtain ⟨ex, w, x, he, _, _, _, hx, htot⟩ := C19_explain env hreg st hst id
    (List.replicate (id + 1) row) row hrow hv i _ (List.getElem?_eq_getElem hi) 1
  obtain ⟨out', h1, h2, _⟩ := C19_recommend env hreg st hst id (List.replicate (id + 1) row) row hrow hv
    i hi 1 ex he n hn hn'
  rw [h] at h1
  have e : out = out' := by injection h1 with h1; injection h1 with h1; injection h1
  subst e
  refine ⟨x, hx, fun s hs => ?_⟩
  rw [h2 s hs, htot, dot_comm, score_fin st.item x ⟨i, hi⟩]
  rfl

/-- **C85** through `recommend(recalculate_user=True, filter_already_liked_items=False)`: raising the
value of a liked item moves the score that is reported for it towards 1, making the value of a disliked
one more negative moves it towards 0. -/
theorem C85_recommend {env : Env f R} (hreg : 0 < env.p.regularization) (hal : 0 < env.p.alpha)
    {st : MFState f R} (hst : Coherent env st) {id i : Nat} {row row' : List (Nat × R)}
    (hv : ValidRow st.item.length row) (hv' : ValidRow st.item.length row') (hi : i < st.item.length)
    (hsame : SameExcept i row row') {n : Nat} (hn : 1 ≤ n) (hn' : n ≤ st.item.length)
    {out out' : List (Nat × R)}
    (h : (runQuery env st (.recommend (.one id) (some [row]) n false none true none)).1 =
      .ok (.answer (.one out)))
    (h' : (runQuery env st (.recommend (.one id) (some [row']) n false none true none)).1 =
      .ok (.answer (.one out')))
    {s s' c c' : R} (hs : (i, s) ∈ out) (hs' : (i, s') ∈ out')
    (hc : row.lookup i = some c) (hc' : row'.lookup i = some c') :
    (0 < c → c ≤ c' → Towards 1 s s') ∧ (c ≤ 0 → c' ≤ c → Towards 0 s s') := by
  obtain ⟨x, hx, h1⟩ := recommend_scores hreg hst hv hi hn hn' h
  obtain ⟨x', hx', h2⟩ := recommend_scores hreg hst hv' hi hn hn' h'
  have := C85_more_confidence ⟨hreg, hal, hst, hv, hv', hi, hsame, ⟨id, hx⟩, ⟨id, hx'⟩⟩ hc hc'
  rw [h1 s hs, h2 s' hs']
  exact ⟨fun a b => (this.1 a b).1, fun a b => (this.2 a b).1⟩

/-- **C85** through `partial_fit_users`: storing first one row and then the other for user `u`, the two
factors that the model holds for `u` compare as in `C85_more_confidence`, `C85_like` and so on. -/
theorem C85_partial_fit {env : Env f R} (hreg : 0 < env.p.regularization) (hal : 0 < env.p.alpha)
    {st : MFState f R} (hst : Coherent env st) {u i : Nat} {row row' : List (Nat × R)}
    (hv : ValidRow st.item.length row) (hv' : ValidRow st.item.length row') (hi : i < st.item.length)
    (hsame : SameExcept i row row') :
    let st₁ := (partialFitUsers env st [u] [row]).2
    let st₂ := (partialFitUsers env st₁ [u] [row']).2
    ∃ x x', st₁.user[u]? = some x ∧ st₂.user[u]? = some x' ∧ st₁.item = st.item ∧
      st₂.item = st.item ∧ Recalculated env st i row row' x x' := by
  intro st₁ st₂
  have hok : (partialFitUsers env st [u] [row]).1 = .ok () := by
    rw [C18_users_returns env hreg st hst [u] [row] (by simpa using hv)]
    simp
  obtain ⟨xs, hxs, hup, hit⟩ := C18_users env st [u] [row] hok
  have hst₁ : Coherent env st₁ := partialFitUsers_coherent hst [u] [row]
  have hok' : (partialFitUsers env st₁ [u] [row']).1 = .ok () := by
    rw [C18_users_returns env hreg st₁ hst₁ [u] [row'] (by rw [hit]; simpa using hv')]
    simp
  obtain ⟨xs', hxs', hup', hit'⟩ := C18_users env st₁ [u] [row'] hok'
  have one : ∀ (st : MFState f R) row xs, Coherent env st →
      (recalculateUser env st (.many [u]) [row]).1 = .ok xs →
      ∃ x, xs = [x] ∧ (recalculateUser env st (.one u) [row]).1 = .ok [x] := by
    intro st row xs hst h
    have e : (recalculateUser env st (.one u) [row]).1 =
        (recalculateUser env st (.many [u]) [row]).1 := by
      rw [recalculateUser_eq hst (.one u) [row] rfl, recalculateUser_eq hst (.many [u]) [row] rfl]
    have hl : xs.length = 1 := by
      rw [recalculateUser_eq hst (.many [u]) [row] rfl] at h
      have := (mapM_ok_iff h).1
      rw [this, applyAlpha_length]; rfl
    obtain ⟨x, rfl⟩ := List.length_eq_one_iff.mp hl
    exact ⟨x, rfl, e.trans h⟩
  obtain ⟨x, rfl, hx⟩ := one st row xs hst hxs
  obtain ⟨x', rfl, hx'⟩ := one st₁ row' xs' hst₁ hxs'
  refine ⟨x, x', hup.named 0 u x rfl rfl ?_, hup'.named 0 u x' rfl rfl ?_, hit, hit'.trans hit,
    ⟨hreg, hal, hst, hv, hv', hi, hsame, ⟨u, hx⟩, ⟨u, ?_⟩⟩⟩
  · intro k hk; cases k with
    | zero => omega
    | succ k => simp
  · intro k hk; cases k with
    | zero => omega
    | succ k => simp
  · rw [recalculateUser_eq hst₁ (.one u) [row'] rfl, hit] at hx'
    rw [recalculateUser_eq hst (.one u) [row'] rfl]
    exact hx'

/-- **C85** for `recalculate_item`: two recalculations of an item compare as those of a user of the
model with users and items exchanged. -/
theorem C85_items {env : Env f R} (hreg : 0 < env.p.regularization) (hal : 0 < env.p.alpha)
    {st : MFState f R} (hst : Coherent env st) {id u : Nat} {col col' : List (Nat × R)}
    (hv : ValidRow st.user.length col) (hv' : ValidRow st.user.length col') (hu : u < st.user.length)
    (hsame : SameExcept u col col') {y y' : Vec f R}
    (h : (recalculateItem env st (.one id) [col]).1 = .ok [y])
    (h' : (recalculateItem env st (.one id) [col']).1 = .ok [y']) {c c' : R}
    (hc : col.lookup u = some c) (hc' : col'.lookup u = some c') :
    (0 < c → c ≤ c' → Towards 1 (score st.user y u) (score st.user y' u)) ∧
      (c ≤ 0 → c' ≤ c → Towards 0 (score st.user y u) (score st.user y' u)) := by
  rw [recalculateItem_swap env st (.one id) _ rfl] at h h'
  have := C85_more_confidence (st := st.swap)
    ⟨hreg, hal, hst.swap, hv, hv', hu, hsame, ⟨id, h⟩, ⟨id, h'⟩⟩ hc hc'
  exact ⟨fun a b => (this.1 a b).1, fun a b => (this.2 a b).1⟩

/-! ## Where the expectation fails -/

theorem recalculated_exists {env : Env f R} (hreg : 0 < env.p.regularization) {st : MFState f R}
    (hst : Coherent env st) (id : Nat) {row : List (Nat × R)} (hv : ValidRow st.item.length row) :
    ∃ x, (recalculateUser env st (.one id) [row]).1 = .ok [x] ∧
      ∀ a, mulVec (gram st.item) x a + env.p.regularization * x a +
        (row.map fun e => (|env.p.alpha * e.2| - 1) * dot (st.item[e.1]?.getD 0) x *
          (st.item[e.1]?.getD 0 : Vec f R) a).sum =
        (row.map fun e => gain (env.p.alpha * e.2) * (st.item[e.1]?.getD 0 : Vec f R) a).sum := by
  obtain ⟨xs, h, hl, hk⟩ := C17_recalculate_user env hreg st hst (.one id) [row] rfl (by simpa using hv)
  obtain ⟨x, rfl⟩ := List.length_eq_one_iff.mp hl
  refine ⟨x, h, fun a => ?_⟩
  have := congrFun ((normalEquations_iff st.item _ (validRow_scale hv env.p.alpha) _ x).mp
    (hk 0 row x rfl rfl).1) a
  rw [mulVec_linearEquation, linearEquation_snd] at this
  simp only [List.map_map, Function.comp_def, conf_eq_abs] at this
  exact this

/-- Two items with opposite factors. -/
def c85Opposite : MFState 1 Rat := freshState ⟨[], [![1], ![-1]]⟩

/-- **C85** fails for likes of weight below 1.  The user likes item 0 with weight 10; item 1 has the
opposite factor.  Liking item 1 as well, with weight 1/10, *lowers* its score from -5/6 to -33/37: the
weight of a like replaces the weight 1 that every item without entry has. -/
theorem C85_weak_like_violated (env : Env 1 Rat) (hreg : env.p.regularization = 1)
    (hal : env.p.alpha = 1) :
    ∃ x x', Recalculated env c85Opposite 1 [(0, 10)] [(0, 10), (1, 1 / 10)] x x' ∧
      score c85Opposite.item x 1 = -(5 / 6) ∧ score c85Opposite.item x' 1 = -(33 / 37) := by
  have h0 : 0 < env.p.regularization := by rw [hreg]; norm_num
  have hst : Coherent env c85Opposite := coherent_fresh env _
  have hv : ValidRow c85Opposite.item.length [((0 : Nat), (10 : Rat))] :=
    ⟨by simp, by simp [c85Opposite, freshState]⟩
  have hv' : ValidRow c85Opposite.item.length [((0 : Nat), (10 : Rat)), (1, 1 / 10)] :=
    ⟨by simp, by simp [c85Opposite, freshState]⟩
  obtain ⟨x, hx, e⟩ := recalculated_exists h0 hst 0 hv
  obtain ⟨x', hx', e'⟩ := recalculated_exists h0 hst 0 hv'
  refine ⟨x, x', ⟨h0, by rw [hal]; norm_num, hst, hv, hv', by simp [c85Opposite, freshState], ?_,
    ⟨0, hx⟩, ⟨0, hx'⟩⟩, ?_, ?_⟩
  · intro j hj
    match j with
    | 0 => rfl
    | 1 => exact absurd rfl hj
    | j + 2 => rfl
  · have := e 0
    simp only [hal, hreg, c85Opposite, freshState] at this
    simp [mulVec, gram, dot, gain] at this
    simp [score, c85Opposite, freshState]
    norm_num at this
    linarith
  · have := e' 0
    simp only [hal, hreg, c85Opposite, freshState] at this
    simp [mulVec, gram, dot, gain] at this
    simp [score, c85Opposite, freshState]
    norm_num at this
    linarith

/-- Two items with parallel factors. -/
def c85Parallel : MFState 1 Rat := freshState ⟨[], [![1], ![2]]⟩

/-- **C85** fails for items whose score exceeds 1: a like of weight 100 brings the score of item 1 down
from 4/3 to 140/137. -/
theorem C85_above_one_violated (env : Env 1 Rat) (hreg : env.p.regularization = 1)
    (hal : env.p.alpha = 1) :
    ∃ x x', Recalculated env c85Parallel 1 [(0, 10)] [(0, 10), (1, 100)] x x' ∧
      score c85Parallel.item x 1 = 4 / 3 ∧ score c85Parallel.item x' 1 = 140 / 137 := by
  have h0 : 0 < env.p.regularization := by rw [hreg]; norm_num
  have hst : Coherent env c85Parallel := coherent_fresh env _
  have hv : ValidRow c85Parallel.item.length [((0 : Nat), (10 : Rat))] :=
    ⟨by simp, by simp [c85Parallel, freshState]⟩
  have hv' : ValidRow c85Parallel.item.length [((0 : Nat), (10 : Rat)), (1, 100)] :=
    ⟨by simp, by simp [c85Parallel, freshState]⟩
  obtain ⟨x, hx, e⟩ := recalculated_exists h0 hst 0 hv
  obtain ⟨x', hx', e'⟩ := recalculated_exists h0 hst 0 hv'
  refine ⟨x, x', ⟨h0, by rw [hal]; norm_num, hst, hv, hv', by simp [c85Parallel, freshState], ?_,
    ⟨0, hx⟩, ⟨0, hx'⟩⟩, ?_, ?_⟩
  · intro j hj
    match j with
    | 0 => rfl
    | 1 => exact absurd rfl hj
    | j + 2 => rfl
  · have := e 0
    simp only [hal, hreg, c85Parallel, freshState] at this
    simp [mulVec, gram, dot, gain] at this
    simp [score, c85Parallel, freshState]
    norm_num at this
    linarith
  · have := e' 0
    simp only [hal, hreg, c85Parallel, freshState] at this
    simp [mulVec, gram, dot, gain] at this
    simp [score, c85Parallel, freshState]
    norm_num at this
    linarith

/-- Three items in two dimensions. -/
def c85Plane : MFState 2 Rat := freshState ⟨[], [![2, 2], ![1, 0], ![1, -1]]⟩

/-- **C85** does not extend to ranks: raising the value of item 1 from 1 to 10 raises its score from
4/11 to 22/29, but that of item 2, which has no entry, from 7/33 to 70/87, and item 2 overtakes
item 1. -/
theorem C85_rank_violated (env : Env 2 Rat) (hreg : env.p.regularization = 1)
    (hal : env.p.alpha = 1) :
    ∃ x x', Recalculated env c85Plane 1 [(0, 1), (1, 1)] [(0, 1), (1, 10)] x x' ∧
      score c85Plane.item x 2 < score c85Plane.item x 1 ∧
      score c85Plane.item x' 1 < score c85Plane.item x' 2 := by
  have h0 : 0 < env.p.regularization := by rw [hreg]; norm_num
  have hst : Coherent env c85Plane := coherent_fresh env _
  have hv : ValidRow c85Plane.item.length [((0 : Nat), (1 : Rat)), (1, 1)] :=
    ⟨by simp, by simp [c85Plane, freshState]⟩
  have hv' : ValidRow c85Plane.item.length [((0 : Nat), (1 : Rat)), (1, 10)] :=
    ⟨by simp, by simp [c85Plane, freshState]⟩
  obtain ⟨x, hx, e⟩ := recalculated_exists h0 hst 0 hv
  obtain ⟨x', hx', e'⟩ := recalculated_exists h0 hst 0 hv'
  refine ⟨x, x', ⟨h0, by rw [hal]; norm_num, hst, hv, hv', by simp [c85Plane, freshState], ?_,
    ⟨0, hx⟩, ⟨0, hx'⟩⟩, ?_, ?_⟩
  · intro j hj
    match j with
    | 0 => rfl
    | 1 => exact absurd rfl hj
    | j + 2 => rfl
  · have h1 := e 0
    have h2 := e 1
    simp only [hal, hreg, c85Plane, freshState] at h1 h2
    simp [mulVec, gram, dot, gain, Fin.sum_univ_succ] at h1 h2
    simp [score, c85Plane, freshState, Fin.sum_univ_succ]
    norm_num at h1 h2
    linarith
  · have h1 := e' 0
    have h2 := e' 1
    simp only [hal, hreg, c85Plane, freshState] at h1 h2
    simp [mulVec, gram, dot, gain, Fin.sum_univ_succ] at h1 h2
    simp [score, c85Plane, freshState, Fin.sum_univ_succ]
    norm_num at h1 h2
    linarith

/-! ## The hypotheses can be met -/

/-- Exact arithmetic over the rationals, regularisation and `alpha` 1. -/
noncomputable def c85Env (H : HeapImpl (Rat × Nat) pairLt) (reg : Rat) : Env 2 Rat :=
  ⟨H, -1000, fun _ => 1, 1, exactSolver 2 Rat, 1 / 10 ^ 20, ⟨reg, 1, true, false, 3, 15⟩⟩

/-- In the plane of `C85_rank_violated` the score of item 1 does go towards 1, strictly. -/
example (H : HeapImpl (Rat × Nat) pairLt) :
    ∃ x x', Recalculated (c85Env H 1) c85Plane 1 [(0, 1), (1, 1)] [(0, 1), (1, 10)] x x' ∧
      Towards 1 (score c85Plane.item x 1) (score c85Plane.item x' 1) := by
  obtain ⟨x, x', h, _⟩ := C85_rank_violated (c85Env H 1) rfl rfl
  exact ⟨x, x', h, ((C85_more_confidence h rfl rfl).1 (by norm_num) (by norm_num)).1⟩

/-- A like of weight 10 where there was no entry, for a score that is below 1. -/
example (H : HeapImpl (Rat × Nat) pairLt) :
    ∃ x x', Recalculated (c85Env H 1) c85Plane 1 [] [(1, 10)] x x' ∧
      score c85Plane.item x 1 < score c85Plane.item x' 1 := by
  have hst : Coherent (c85Env H 1) c85Plane := coherent_fresh _ _
  have hv : ValidRow c85Plane.item.length ([] : List (Nat × Rat)) := ⟨by simp, by simp⟩
  have hv' : ValidRow c85Plane.item.length [((1 : Nat), (10 : Rat))] :=
    ⟨by simp, by simp [c85Plane, freshState]⟩
  have h0 : 0 < (c85Env H 1).p.regularization := by simp [c85Env]
  obtain ⟨x, hx, _⟩ := recalculated_exists h0 hst 0 hv
  obtain ⟨x', hx', _⟩ := recalculated_exists h0 hst 0 hv'
  have hR : Recalculated (c85Env H 1) c85Plane 1 [] [(1, 10)] x x' :=
    ⟨h0, by simp [c85Env], hst, hv, hv', by simp [c85Plane, freshState], by
      intro j hj
      have : (j == 1) = false := by simpa using hj
      simp [List.lookup, this], ⟨0, hx⟩, ⟨0, hx'⟩⟩
  have hz : x = 0 := by
    have := (C85_bounds (c85Env H 1) h0 c85Plane hst 0 [] hv x hx).2.2.2.1
    exact this rfl
  have hs : score c85Plane.item x 1 = 0 := by rw [hz]; simp [score]
  refine ⟨x, x', hR, (C85_like hR rfl rfl (by simp [c85Env]) (by rw [hs]; norm_num)).2 ?_⟩
  intro h
  have h2 : (![1, 0] : Vec 2 Rat) 0 = 0 := congrFun h 0
  exact absurd h2 (by decide)

/-- Doubling the regularisation shrinks a factor that is not zero. -/
example (H : HeapImpl (Rat × Nat) pairLt) :
    ∃ x x', (recalculateUser (c85Env H 1) c85Plane (.one 0) [[(1, 10)]]).1 = .ok [x] ∧
      (recalculateUser (c85Env H 2) c85Plane (.one 0) [[(1, 10)]]).1 = .ok [x'] ∧
      Spec.sqLength x' < Spec.sqLength x := by
  have hst : ∀ r, Coherent (c85Env H r) c85Plane := fun _ => coherent_fresh _ _
  have hv : ValidRow c85Plane.item.length [((1 : Nat), (10 : Rat))] :=
    ⟨by simp, by simp [c85Plane, freshState]⟩
  obtain ⟨x, hx, e⟩ := recalculated_exists (env := c85Env H 1) (by simp [c85Env]) (hst 1) 0 hv
  obtain ⟨x', hx', _⟩ := recalculated_exists (env := c85Env H 2) (by simp [c85Env]) (hst 2) 0 hv
  refine ⟨x, x', hx, hx', ?_⟩
  rcases C85_regularisation (c85Env H 1) (c85Env H 2) (by simp [c85Env]) (by simp [c85Env]) rfl c85Plane
    (hst 1) (hst 2) 0 0 [(1, 10)] hv x x' hx hx' with ⟨h, _⟩ | h
  · have h1 := e 0
    rw [h] at h1
    simp [mulVec, gram, dot, gain, c85Plane, freshState, c85Env] at h1
  · exact h.1

/-- Training with the direct solver from large initial factors. -/
example : ∃ trace, alsTrace (alsSolver (exactSolver 1 Rat) (1 / 10 ^ 20)
      ⟨1 / 10, 1, true, false, 3, 15⟩) [[(0, 3), (1, -2)], []]
      (transposeRows 2 [[(0, 3), (1, -2)], []]) (1 / 10) 15
      ⟨[![1000], ![3]], [![100], ![-5]]⟩ = .ok trace ∧ trace.length = 15 ∧
      ∀ m' ∈ trace, FactorsBounded [[(0, 3), (1, -2)], []]
        (transposeRows 2 [[(0, 3), (1, -2)], []]) (1 / 10) m' :=
  C85_direct (exactSolver 1 Rat) (1 / 10 ^ 20) ⟨1 / 10, 1, true, false, 3, 15⟩ rfl (by norm_num)
    [[(0, 3), (1, -2)], []] 15 ⟨[![1000], ![3]], [![100], ![-5]]⟩ rfl (by
      intro row hrow
      simp only [List.mem_cons, List.not_mem_nil, or_false] at hrow
      rcases hrow with rfl | rfl <;> exact ⟨by simp, by simp⟩)

end Implicit
