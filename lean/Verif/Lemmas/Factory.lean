import Verif.Model.Factory
import Mathlib.Data.List.Nodup

namespace Implicit

open Spec (Call)

theorem lookup_of_mem {K V : Type} [DecidableEq K] {p : K} {v : V} : ∀ {l : List (K × V)}, (l.map Prod.fst).Nodup →
    (p, v) ∈ l → l.lookup p = some v
  | [], _, h => by cases h
  | (q, w) :: l, hnd, h => by
    rw [List.map_cons, List.nodup_cons] at hnd
    rcases List.mem_cons.mp h with h' | h'
    · cases h'; simp
    · have hne : p ≠ q := by
        rintro rfl
        exact hnd.1 (List.mem_map.mpr ⟨(p, v), h', rfl⟩)
      rw [List.lookup_cons, beq_false_of_ne hne]
      exact lookup_of_mem hnd.2 h'

theorem mem_of_lookup {K V : Type} [DecidableEq K] {p : K} {v : V} : ∀ {l : List (K × V)},
    l.lookup p = some v → (p, v) ∈ l
  | [], h => by cases h
  | (q, w) :: l, h => by
    by_cases hpq : p = q
    · subst hpq
      simp at h
      simp [h]
    · rw [List.lookup_cons, beq_false_of_ne hpq] at h
      exact List.mem_cons_of_mem _ (mem_of_lookup h)

/-- Parameters with defaults. -/
def withDefaults (d : PName → ArgVal) (names : List PName) : List (PName × Option ArgVal) :=
  names.map fun p => (p, some (d p))

theorem bindParams_ok (kw : List (PName × ArgVal)) (d : PName → ArgVal) : ∀ (names : List PName) (pos : List ArgVal),
    ∃ l, bindParams kw (withDefaults d names) pos = .ok l ∧ l.map Prod.fst = names ∧
      ∀ (i : Nat) p, names[i]? = some p → l[i]? = some (p, (pos[i]?).getD ((kw.lookup p).getD (d p)))
  | [], pos => ⟨[], rfl, rfl, by simp⟩
  | p :: names, pos => by
    obtain ⟨l, hl, hm, hv⟩ := bindParams_ok kw d names pos.tail
    refine ⟨(p, (pos[0]?).getD ((kw.lookup p).getD (d p))) :: l, ?_, by simp [hm], ?_⟩
    · unfold withDefaults at hl ⊢
      have hp : bindParam kw p (some (d p)) pos.head? = .ok ((pos[0]?).getD ((kw.lookup p).getD (d p))) := by
        unfold bindParam
        cases pos <;> cases kw.lookup p <;> rfl
      simp only [List.map_cons, bindParams, hp, hl, bind, Except.bind, pure, Except.pure]
    · intro i q hq
      cases i with
      | zero => cases hq; rfl
      | succ i =>
        rw [List.getElem?_cons_succ] at hq ⊢
        rw [hv i q hq]
        cases pos <;> simp

theorem means_unique {names : List PName} {d : PName → ArgVal} {c : Call PName ArgVal} {n : Nat}
    (hnd : names.Nodup) (hfit : c.Fits names n) {p : PName} {v : ArgVal} (h : c.Means names d p v) :
    ∀ i : Nat, names[i]? = some p → (c.pos[i]?).getD ((c.kw.lookup p).getD (d p)) = v := by
  intro i hi
  have hil := (List.getElem?_eq_some_iff.mp hi).1
  rcases h with ⟨j, hj, hv⟩ | hkw | ⟨hpos, hkw, rfl⟩
  · have : i = j := (List.getElem?_inj hil hnd).mp (hi.trans hj.symm)
    subst this
    rw [hv]; rfl
  · have hnone : c.pos[i]? = none := by
      rw [List.getElem?_eq_none_iff]
      by_contra hlt
      apply hfit.notTwice _ hkw
      rw [List.mem_iff_getElem?]
      exact ⟨i, by rw [List.getElem?_take_of_lt (by omega)]; exact hi⟩
    rw [hnone, lookup_of_mem hfit.once hkw]; rfl
  · have hnone : c.pos[i]? = none := List.getElem?_eq_none_iff.mpr (hpos i hi)
    have hl : c.kw.lookup p = none := by
      cases h : c.kw.lookup p with
      | none => rfl
      | some w => exact absurd (mem_of_lookup h) (hkw w)
    rw [hnone, hl]; rfl

theorem fst_withDefaults (d : PName → ArgVal) (names : List PName) :
    (withDefaults d names).map Prod.fst = names := by
  unfold withDefaults
  simp [Function.comp_def]

theorem knows_plain (d : PName → ArgVal) (names : List PName) (a b : Bool) (p : PName) :
    PySig.knows ⟨withDefaults d names, [], a, b⟩ p = decide (p ∈ names) := by
  unfold PySig.knows
  simp [fst_withDefaults]

/-- Binding of a signature in which every parameter has a default and that accepts no surplus arguments: succeeds
exactly for the calls that fit, with the values the caller means. -/
theorem pyBind_plain (d : PName → ArgVal) {names : List PName} (hnd : names.Nodup) (c : Call PName ArgVal) :
    (c.Fits names names.length → ∃ b, pyBind ⟨withDefaults d names, [], false, false⟩ c = .ok b ∧
      ∀ p ∈ names, ∀ v, c.Means names d p v → b.get p = v) ∧
    (¬ c.Fits names names.length → pyBind ⟨withDefaults d names, [], false, false⟩ c = .error .typeError) := by
  have hlen : (withDefaults d names).length = names.length := by simp [withDefaults]
  have htake : ((withDefaults d names).take c.pos.length).map Prod.fst = names.take c.pos.length := by
    rw [List.map_take, fst_withDefaults]
  constructor
  · intro hfit
    obtain ⟨l, hl, hm, hv⟩ := bindParams_ok c.kw d names c.pos
    refine ⟨⟨l ++ [], c.pos.drop (withDefaults d names).length,
      c.kw.filter fun e => !PySig.knows ⟨withDefaults d names, [], false, false⟩ e.1⟩, ?_, ?_⟩
    · unfold pyBind
      rw [if_neg (by rintro ⟨h, -⟩; have := hfit.posCount; simp only [hlen] at h; omega)]
      rw [if_neg (by simpa using hfit.once)]
      rw [if_neg (by
        intro h
        obtain ⟨e, he, hc⟩ := List.any_eq_true.mp h
        simp only [htake] at hc
        exact hfit.notTwice e he (by simpa using hc))]
      rw [if_neg (by
        rintro ⟨-, h⟩
        obtain ⟨e, he, hc⟩ := List.any_eq_true.mp h
        rw [knows_plain] at hc
        have := hfit.known e he
        simp [this] at hc)]
      simp only [hl]
      rfl
    · intro p hp v hmeans
      obtain ⟨i, hi⟩ := List.mem_iff_getElem?.mp hp
      have := hv i p hi
      rw [means_unique hnd hfit hmeans i hi] at this
      unfold BoundArgs.get
      simp only [List.append_nil]
      rw [lookup_of_mem (by rw [hm]; exact hnd) (List.mem_of_getElem? this)]
      rfl
  · intro hfit
    unfold pyBind
    by_cases h1 : names.length < c.pos.length
    · rw [if_pos ⟨by simpa only [hlen] using h1, rfl⟩]
    rw [if_neg (by rintro ⟨h, -⟩; simp only [hlen] at h; exact h1 h)]
    by_cases h2 : (c.kw.map Prod.fst).Nodup
    swap
    · rw [if_pos h2]
    rw [if_neg (by simpa using h2)]
    by_cases h3 : ∀ e ∈ c.kw, e.1 ∉ names.take c.pos.length
    swap
    · rw [if_pos]
      push Not at h3
      obtain ⟨e, he, hc⟩ := h3
      exact List.any_eq_true.mpr ⟨e, he, by simp only [htake]; simpa using hc⟩
    rw [if_neg (by
      intro h
      obtain ⟨e, he, hc⟩ := List.any_eq_true.mp h
      simp only [htake] at hc
      exact h3 e he (by simpa using hc))]
    by_cases h4 : ∀ e ∈ c.kw, e.1 ∈ names
    · exact absurd ⟨by omega, h4, h2, h3⟩ hfit
    · rw [if_pos]
      refine ⟨rfl, ?_⟩
      push Not at h4
      obtain ⟨e, he, hc⟩ := h4
      exact List.any_eq_true.mpr ⟨e, he, by rw [knows_plain]; simp [hc]⟩

/-- Binding of a signature `*args, name=default, ..., **kwargs`. -/
theorem pyBind_forward (own : List (PName × ArgVal)) (hown : (own.map Prod.fst).Nodup) (c : Call PName ArgVal)
    (hkw : (c.kw.map Prod.fst).Nodup) :
    ∃ b, pyBind ⟨[], own, true, true⟩ c = .ok b ∧ b.extraPos = c.pos ∧
      b.extraKw = c.kw.filter (fun e => decide (e.1 ∉ own.map Prod.fst)) ∧
      ∀ e ∈ own, b.get e.1 = (c.kw.lookup e.1).getD e.2 := by
  refine ⟨⟨own.map (fun e => (e.1, (c.kw.lookup e.1).getD e.2)), c.pos,
      c.kw.filter (fun e => decide (e.1 ∉ own.map Prod.fst))⟩, ?_, rfl, rfl, ?_⟩
  · unfold pyBind
    rw [if_neg (by simp), if_neg (by simpa using hkw), if_neg (by simp), if_neg (by simp)]
    simp only [bindParams, List.nil_append, List.length_nil, List.drop_zero]
    congr 2
    apply List.filter_congr
    intro e _
    unfold PySig.knows
    simp
  · intro e he
    unfold BoundArgs.get
    rw [lookup_of_mem (v := (c.kw.lookup e.1).getD e.2) (by simpa [Function.comp_def] using hown)
      (List.mem_map.mpr ⟨e, he, rfl⟩)]
    rfl

theorem pyBind_forward_error (own : List (PName × ArgVal)) (c : Call PName ArgVal)
    (hkw : ¬ (c.kw.map Prod.fst).Nodup) : pyBind ⟨[], own, true, true⟩ c = .error .typeError := by
  unfold pyBind
  rw [if_neg (by simp), if_pos hkw]

/-- Every parameter of a call that fits has a meant value. -/
theorem means_exists {names : List PName} (d : PName → ArgVal) (c : Call PName ArgVal) {p : PName} (hp : p ∈ names)
    (hnd : names.Nodup) : ∃ v, c.Means names d p v := by
  obtain ⟨i, hi⟩ := List.mem_iff_getElem?.mp hp
  by_cases hl : i < c.pos.length
  · exact ⟨c.pos[i], Or.inl ⟨i, hi, List.getElem?_eq_getElem hl⟩⟩
  · by_cases hk : ∃ w, (p, w) ∈ c.kw
    · obtain ⟨w, hw⟩ := hk
      exact ⟨w, Or.inr (Or.inl hw)⟩
    · push Not at hk
      refine ⟨d p, Or.inr (Or.inr ⟨?_, hk, rfl⟩)⟩
      intro j hj
      have := (List.getElem?_inj (List.getElem?_eq_some_iff.mp hi).1 hnd).mp (hi.trans hj.symm)
      omega

/-- The call made to the wrapped factory: the positional arguments, `use_gpu`, and the keywords that are not among
the own parameters. -/
def innerCall (own : List PName) (g : ArgVal) (c : Call PName ArgVal) : Call PName ArgVal :=
  ⟨c.pos, (.use_gpu, g) :: c.kw.filter (fun e => decide (e.1 ∉ own ++ [.use_gpu]))⟩

section Inner

variable {names own : List PName} {k : Nat}

theorem innerCall_fits (hk : names[k]? = some .use_gpu) (hnd : names.Nodup) {c : Call PName ArgVal}
    (hc : c.Fits (names ++ own) k) (g : ArgVal) :
    (innerCall own g c).Fits names names.length := by
  have hkl := (List.getElem?_eq_some_iff.mp hk).1
  have hpos := hc.posCount
  refine ⟨by show c.pos.length ≤ _; omega, ?_, ?_, ?_⟩
  · intro e he
    rcases List.mem_cons.mp he with rfl | he
    · exact List.mem_of_getElem? hk
    · obtain ⟨he1, he2⟩ := List.mem_filter.mp he
      rcases List.mem_append.mp (hc.known e he1) with h | h
      · exact h
      · simp [h] at he2
  · show ((.use_gpu, g) :: c.kw.filter _ |>.map Prod.fst).Nodup
    rw [List.map_cons, List.nodup_cons]
    constructor
    · intro h
      obtain ⟨e, he, hee⟩ := List.mem_map.mp h
      have := (List.mem_filter.mp he).2
      simp [hee] at this
    · exact hc.once.sublist (List.filter_sublist.map _)
  · intro e he
    rcases List.mem_cons.mp he with rfl | he
    · intro h
      obtain ⟨i, hi⟩ := List.mem_iff_getElem?.mp h
      have hi' : i < c.pos.length ∧ names[i]? = some .use_gpu := by
        rw [List.getElem?_take] at hi
        split at hi
        · exact ⟨by assumption, hi⟩
        · cases hi
      have := (List.getElem?_inj hkl hnd).mp (hk.trans hi'.2.symm)
      omega
    · intro h
      refine hc.notTwice e (List.mem_filter.mp he).1 ?_
      rw [List.take_append_of_le_length (by omega)]
      exact h

theorem innerCall_not_fits (hk : names[k]? = some .use_gpu) (hdisj : ∀ p ∈ own, p ∉ names)
    {c : Call PName ArgVal} (hkw : (c.kw.map Prod.fst).Nodup) (hc : ¬ c.Fits (names ++ own) k) (g : ArgVal) :
    ¬ (innerCall own g c).Fits names names.length := by
  intro hf
  have hkl := (List.getElem?_eq_some_iff.mp hk).1
  have hpos : c.pos.length ≤ k := by
    by_contra h
    refine hf.notTwice (.use_gpu, g) (List.mem_cons_self ..) ?_
    exact List.mem_iff_getElem?.mpr ⟨k, by
      show (names.take c.pos.length)[k]? = _
      rw [List.getElem?_take, if_pos (by omega)]; exact hk⟩
  refine hc ⟨hpos, ?_, hkw, ?_⟩
  · intro e he
    by_cases h : e.1 ∈ own ++ [.use_gpu]
    · rcases List.mem_append.mp h with h | h
      · exact List.mem_append_right _ h
      · rw [List.mem_singleton.mp h]
        exact List.mem_append_left _ (List.mem_of_getElem? hk)
    · exact List.mem_append_left _ (hf.known e (List.mem_cons_of_mem _ (List.mem_filter.mpr ⟨he, by simpa using h⟩)))
  · intro e he h
    rw [List.take_append_of_le_length (by omega)] at h
    by_cases h' : e.1 ∈ own ++ [.use_gpu]
    · rcases List.mem_append.mp h' with h' | h'
      · exact hdisj _ h' (List.mem_of_mem_take h)
      · rw [List.mem_singleton.mp h'] at h
        exact hf.notTwice (.use_gpu, g) (List.mem_cons_self ..) h
    · exact hf.notTwice e (List.mem_cons_of_mem _ (List.mem_filter.mpr ⟨he, by simpa using h'⟩)) h

theorem innerCall_means (hk : names[k]? = some .use_gpu) (hdisj : ∀ p ∈ own, p ∉ names)
    {d d' : PName → ArgVal} (hd : ∀ p ∈ names, p ≠ .use_gpu → d p = d' p)
    {c : Call PName ArgVal} (hc : c.Fits (names ++ own) k) {g : ArgVal} {p : PName} (hp : p ∈ names) {v : ArgVal}
    (hm : c.Means (names ++ own) d p v) (hg : p = .use_gpu → v = g) :
    (innerCall own g c).Means names d' p v := by
  have hpos := hc.posCount
  have hkl := (List.getElem?_eq_some_iff.mp hk).1
  by_cases hpg : p = .use_gpu
  · subst hpg
    exact Or.inr (Or.inl (by rw [hg rfl]; exact List.mem_cons_self ..))
  rcases hm with ⟨i, hi, hv⟩ | hm | ⟨h1, h2, h3⟩
  · have hil := (List.getElem?_eq_some_iff.mp hv).1
    rw [List.getElem?_append_left (by omega)] at hi
    exact Or.inl ⟨i, hi, hv⟩
  · refine Or.inr (Or.inl (List.mem_cons_of_mem _ (List.mem_filter.mpr ⟨hm, ?_⟩)))
    have : p ∉ own := fun h => hdisj p h hp
    simp [this, hpg]
  · refine Or.inr (Or.inr ⟨?_, ?_, by rw [h3]; exact hd p hp hpg⟩)
    · intro i hi
      have hil := (List.getElem?_eq_some_iff.mp hi).1
      exact h1 i (by rw [List.getElem?_append_left hil]; exact hi)
    · intro w hw
      rcases List.mem_cons.mp hw with hw | hw
      · cases hw; exact hpg rfl
      · exact h2 w (List.mem_filter.mp hw).1

/-- The value of an own parameter or of `use_gpu`. -/
theorem own_value (hk : names[k]? = some .use_gpu) (hnd : (names ++ own).Nodup)
    {d : PName → ArgVal} {c : Call PName ArgVal} (hc : c.Fits (names ++ own) k) {p : PName}
    (hp : p ∈ own ++ [.use_gpu]) {v : ArgVal} (hm : c.Means (names ++ own) d p v) :
    (c.kw.lookup p).getD (d p) = v := by
  have hkl := (List.getElem?_eq_some_iff.mp hk).1
  have hpos := hc.posCount
  have : ∃ i : Nat, (names ++ own)[i]? = some p ∧ k ≤ i := by
    rcases List.mem_append.mp hp with h | h
    · obtain ⟨i, hi⟩ := List.mem_iff_getElem?.mp h
      refine ⟨names.length + i, ?_, by omega⟩
      rw [List.getElem?_append_right (by omega), ← hi]
      congr 1; omega
    · rw [List.mem_singleton.mp h]
      exact ⟨k, by rw [List.getElem?_append_left hkl]; exact hk, le_refl _⟩
  obtain ⟨i, hi, hki⟩ := this
  have := means_unique hnd hc hm i hi
  rw [List.getElem?_eq_none (by omega)] at this
  exact this

end Inner

end Implicit
