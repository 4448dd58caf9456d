import Verif.Lemmas.SharedQueries
/-!
# `partial_fit` of a thread while other threads use the model
-/

set_option linter.unusedSectionVars false

namespace Implicit

variable {R : Type} [LinearOrder R] [Field R] {f : Nat}

theorem Setting.Agrees.set {c : Setting f R} {d : Side} {t : List (Vec f R)} (h : c.Agrees d t) {W : Nat → Prop}
    (ht : c.touched d = some W) {i : Nat} (hi : W i) (x : Vec f R) : c.Agrees d (t.set i x) := by
  unfold Setting.Agrees at h ⊢
  rw [ht] at h ⊢
  refine ⟨by simpa using h.1, fun u hu hw => ?_⟩
  have hne : i ≠ u := fun e => hw (e ▸ hi)
  rw [List.getElem?_set_ne hne]
  exact h.2 u hu hw

theorem Setting.Agrees.append {c : Setting f R} {d : Side} {t : List (Vec f R)} (h : c.Agrees d t) {W : Nat → Prop}
    (ht : c.touched d = some W) (l : List (Vec f R)) : c.Agrees d (t ++ l) := by
  unfold Setting.Agrees at h ⊢
  rw [ht] at h ⊢
  refine ⟨by simp; omega, fun u hu hw => ?_⟩
  rw [List.getElem?_append_left (by omega)]
  exact h.2 u hu hw

section

variable {env : Env f R} {c : Setting f R} {rely guar : Shared f R → Shared f R → Prop}

/-- Other factor matrices on a side that is updated. -/
theorem sound_tabs {s : Shared f R} (hs : Sound env c s) (d : Side) (l : List (List (Vec f R))) (k : Nat)
    (hl : ∀ t ∈ l, c.Agrees d t) (hk : k < l.length) (hlen : (s.tabs d).length ≤ l.length) :
    let s' := { s with tabs := Function.update s.tabs d l, cur := Function.update s.cur d k }
    Sound env c s' ∧ Grows c s s' := by
  refine ⟨⟨?_, ?_, hs.norms, hs.arrays, hs.ready, hs.warm, hs.gram⟩, ⟨?_, fun _ => le_refl _, fun _ _ h => h, fun _ _ h => h⟩⟩
  · intro d' t ht
    by_cases h : d' = d
    · subst h
      simp only [Function.update_self] at ht
      exact hl t ht
    · simp only [Function.update_of_ne h] at ht
      exact hs.tabs d' t ht
  · intro d'
    by_cases h : d' = d
    · subst h
      simpa using hk
    · simpa [Function.update_of_ne h] using hs.cur d'
  · intro d'
    by_cases h : d' = d
    · subst h
      simpa using hlen
    · simp [Function.update_of_ne h]

theorem sound_clear {s : Shared f R} (hs : Sound env c s) (d : Side) (ht : c.touched d ≠ none) :
    Quiet env c s { s with norms := Function.update s.norms d none } ∧
    Quiet env c s { s with gram := Function.update s.gram d none } := by
  have hne : ∀ d', c.touched d' = none → d' ≠ d := fun d' h e => ht (e ▸ h)
  refine ⟨⟨⟨hs.tabs, hs.cur, ?_, hs.arrays, hs.ready, ?_, hs.gram⟩,
      ⟨fun _ => le_refl _, fun _ => le_refl _, ?_, fun _ _ h => h⟩, rfl, rfl⟩,
    ⟨⟨hs.tabs, hs.cur, hs.norms, hs.arrays, hs.ready, hs.warm, ?_⟩,
      ⟨fun _ => le_refl _, fun _ => le_refl _, fun _ _ h => h, ?_⟩, rfl, rfl⟩⟩
  · intro d' h p hp
    simp only [Function.update_of_ne (hne d' h)] at hp
    exact hs.norms d' h p hp
  · intro d' h hw
    simp only [Function.update_of_ne (hne d' h)]
    exact hs.warm d' h hw
  · intro d' h hn
    simp only [Function.update_of_ne (hne d' h)]
    exact hn
  · intro d' h G hG
    simp only [Function.update_of_ne (hne d' h)] at hG
    exact hs.gram d' h G hG
  · intro d' h hn
    simp only [Function.update_of_ne (hne d' h)]
    exact hn

variable (hR : ∀ s s', rely s s' → Proper env c s s') (hU : ∀ s s', Sound env c s → Sound env c s' → Grows c s s' → guar s s')

include hR hU

theorem does_storeRows (d : Side) (p : Nat) {W : Nat → Prop} (ht : c.touched d = some W) : ∀ rows : List (Nat × Vec f R),
    (∀ e ∈ rows, W e.1) → Does env c rely guar (fun s => p < (s.tabs d).length) (storeRows d p rows) fun _ _ => True
  | [], _ => Does.done hR (by kept) fun _ _ _ => trivial
  | (i, x) :: rest, hw => by
    refine Does.bind (Q := fun _ s => p < (s.tabs d).length) ?_ fun _ =>
      does_storeRows d p ht rest fun e he => hw e (by simp [he])
    refine Does.write hR (by kept) (by kept) fun s hs hp => ?_
    have h := sound_tabs hs d ((s.tabs d).set p ((s.tab d p).set i x)) (s.cur d) ?_ (by simpa using hs.cur d) (by simp)
    · simp only [Function.update_eq_self] at h
      exact ⟨hU _ _ hs h.1 h.2, h.1, by simpa using hp⟩
    · intro t htm
      rcases List.mem_or_eq_of_mem_set htm with h | rfl
      · exact hs.tabs d t h
      · exact (hs.tabs d _ (Shared.tab_mem hp)).set ht (hw (i, x) (by simp)) x

theorem does_grow (d : Side) (extra : Nat) {W : Nat → Prop} (ht : c.touched d = some W) :
    Does env c rely guar (fun _ => True) (growProg d extra) fun _ _ => True := by
  have hG : ∀ s s', Sound env c s → Quiet env c s s' → guar s s' := fun s s' hs hq => hU s s' hs hq.1 hq.2.1
  unfold growProg
  refine Does.bind (does_table hR hG d) fun t => ?_
  refine Does.bind (Q := fun _ _ => True) ?_ fun _ => Does.done hR (by kept) fun _ _ _ => trivial
  refine Does.write hR (by kept) (by kept) fun s hs hag => ?_
  have h := sound_tabs hs d (s.tabs d ++ [t ++ List.replicate extra (fun _ => 0)]) (s.tabs d).length ?_ (by simp) (by simp)
  · exact ⟨hU _ _ hs h.1 h.2, h.1, trivial⟩
  · intro t' ht'
    simp only [List.mem_append, List.mem_singleton] at ht'
    rcases ht' with h | rfl
    · exact hs.tabs d t' h
    · exact hag.append ht _

theorem does_andThen_true {α β : Type} {P : Shared f R → Prop} {p : Thread f R α} {k : α → Thread f R β}
    (hp : Does env c rely guar P p fun _ _ => True)
    (hk : ∀ a, Does env c rely guar (fun _ => True) (k a) fun _ _ => True) :
    Does env c rely guar P (p.andThen k) fun _ _ => True := by
  refine Does.bind hp fun r => ?_
  cases r with
  | error e => exact Does.done hR (by kept) fun _ _ _ => trivial
  | ok a => exact hk a

theorem does_store (d : Side) (ids : List Nat) (xs : List (Vec f R)) {W : Nat → Prop} (ht : c.touched d = some W)
    (hw : ∀ i ∈ ids, W i) : Does env c rely guar (fun _ => True) (storeProg d ids xs) fun _ _ => True := by
  have hG : ∀ s s', Sound env c s → Quiet env c s s' → guar s s' := fun s s' hs hq => hU s s' hs hq.1 hq.2.1
  unfold storeProg
  refine Does.bind (Q := fun _ _ => True) (Does.read hR hG (by kept) (fun _ => by kept) fun _ _ _ => trivial) fun n => ?_
  cases pyMax ids with
  | error e => exact Does.done hR (by kept) fun _ _ _ => trivial
  | ok maxId =>
    simp only
    refine does_andThen_true hR hU ?_ fun _ => ?_
    · split_ifs
      · exact does_grow hR hU d _ ht
      · exact Does.done hR (by kept) fun _ _ _ => trivial
    refine Does.bind (Q := fun p s => p < (s.tabs d).length)
      (Does.read hR hG (by kept) (fun _ => by kept) fun s hs _ => hs.cur d) fun p => ?_
    refine Does.bind (Q := fun _ s => p < (s.tabs d).length)
      (Does.read hR hG (by kept) (fun _ => by kept) fun s hs h => h) fun r => ?_
    cases r with
    | error e => exact Does.done hR (by kept) fun _ _ _ => trivial
    | ok _ =>
      refine does_andThen_true hR hU (does_storeRows hR hU d p ht _ ?_) fun _ => ?_
      · intro e he
        exact hw e.1 (List.of_mem_zip he).1
      refine Does.bind (Q := fun _ _ => True) ?_ fun _ => Does.bind (Q := fun _ _ => True) ?_ fun _ =>
        Does.done hR (by kept) fun _ _ _ => trivial
      · refine Does.write hR (by kept) (by kept) fun s hs _ => ?_
        have hq := (sound_clear hs d (by simp [ht])).1
        exact ⟨hG _ _ hs hq, hq.1, trivial⟩
      · refine Does.write hR (by kept) (by kept) fun s hs _ => ?_
        have hq := (sound_clear hs d (by simp [ht])).2
        exact ⟨hG _ _ hs hq, hq.1, trivial⟩

theorem does_partialFitUsers (ids : List Nat) (rows : SpRows R) {W : Nat → Prop} (ht : c.touched .user = some W)
    (hw : ∀ i ∈ ids, W i) : Does env c rely guar (fun _ => True) (partialFitUsersProg env ids rows) fun _ _ => True := by
  have hG : ∀ s s', Sound env c s → Quiet env c s s' → guar s s' := fun s s' hs hq => hU s s' hs hq.1 hq.2.1
  unfold partialFitUsersProg
  split_ifs
  · exact Does.done hR (by kept) fun _ _ _ => trivial
  · exact does_andThen_true hR hU ((does_recalculateUser hR hG (.many ids) rows).weaken fun _ _ _ => trivial)
      fun xs => does_store hR hU .user ids xs ht hw

theorem does_partialFitItems (ids : List Nat) (rows : SpRows R) {W : Nat → Prop} (ht : c.touched .item = some W)
    (hw : ∀ i ∈ ids, W i) : Does env c rely guar (fun _ => True) (partialFitItemsProg env ids rows) fun _ _ => True := by
  have hG : ∀ s s', Sound env c s → Quiet env c s s' → guar s s' := fun s s' hs hq => hU s s' hs hq.1 hq.2.1
  unfold partialFitItemsProg
  split_ifs
  · exact Does.done hR (by kept) fun _ _ _ => trivial
  · exact does_andThen_true hR hU ((does_recalculateItem hR hG (.many ids) rows).weaken fun _ _ _ => trivial)
      fun xs => does_store hR hU .item ids xs ht hw

end

/-! ## The start -/

/-- What is known about a run that starts with the model `st`. -/
def Setting.of (st : MFState f R) (touched : Side → Option (Nat → Prop)) : Setting f R where
  T := fun d => Side.casesOn d st.user st.item
  touched := touched
  warm := fun d => Side.casesOn d (st.userNorms ≠ none) (st.itemNorms ≠ none)

/-- The run starts with a model whose caches are right. -/
theorem sound_start {env : Env f R} {st : MFState f R} (h : Coherent env st) (touched : Side → Option (Nat → Prop)) :
    Sound env (.of st touched) (Shared.start st) := by
  refine ⟨?_, ?_, ?_, ?_, ?_, ?_, ?_⟩
  · intro d t ht
    have e : t = (Setting.of st touched).T d := by
      cases d <;> simpa [Shared.start, Setting.of] using ht
    unfold Setting.Agrees
    split
    · exact e
    · rw [e]; exact ⟨le_refl _, fun _ _ _ => rfl⟩
  · intro d
    cases d <;> simp [Shared.start]
  · intro d _ p hp
    cases d with
    | user => cases hn : st.userNorms <;> simp_all [Shared.start]
    | item => cases hn : st.itemNorms <;> simp_all [Shared.start]
  · intro d _ a ha
    cases d with
    | user => exact .inr (h.userNorms a (by simpa [Shared.start] using ha))
    | item => exact .inr (h.itemNorms a (by simpa [Shared.start] using ha))
  · intro d _ _ a ha
    cases d with
    | user => exact h.userNorms a (by simpa [Shared.start] using ha)
    | item => exact h.itemNorms a (by simpa [Shared.start] using ha)
  · intro d _ hw
    cases d with
    | user => cases hn : st.userNorms <;> simp_all [Shared.start, Setting.of]
    | item => cases hn : st.itemNorms <;> simp_all [Shared.start, Setting.of]
  · intro d _ G hG
    cases d with
    | user => exact h.XtX G hG
    | item => exact h.YtY G hG

/-! ## One thread that updates -/

/-- What the threads that only query do. -/
def Silent (env : Env f R) (c : Setting f R) (s s' : Shared f R) : Prop := Sound env c s → Quiet env c s s'

theorem Silent.proper {env : Env f R} {c : Setting f R} {s s' : Shared f R} (h : Silent env c s s') : Proper env c s s' :=
  fun hs => ⟨(h hs).1, (h hs).2.1⟩

/-- The factors of side `d` are now `X`. -/
def TableIs (env : Env f R) (c : Setting f R) (d : Side) (X : List (Vec f R)) (s : Shared f R) : Prop :=
  Sound env c s ∧ s.tab d (s.cur d) = X

theorem tableIs_stable (env : Env f R) (c : Setting f R) (d : Side) (X : List (Vec f R)) :
    Stable (Silent env c) (TableIs env c d X) := by
  intro s s' hs hr
  obtain ⟨h1, -, h2, h3⟩ := hr hs.1
  refine ⟨h1, ?_⟩
  unfold Shared.tab
  rw [h2, h3]
  exact hs.2

/-- The same, with the number of the array in hand. -/
theorem tableIs_at_stable (env : Env f R) (c : Setting f R) (d : Side) (X : List (Vec f R)) (p : Nat) :
    Stable (Silent env c) fun s => TableIs env c d X s ∧ s.cur d = p := by
  intro s s' hs hr
  refine ⟨tableIs_stable env c d X s s' hs.1 hr, ?_⟩
  rw [(hr hs.1.1).2.2.2]
  exact hs.2

section

variable {env : Env f R} {c : Setting f R}

theorem writer_query {α : Type} {p : Prog (Shared f R) α} {Q : α → Shared f R → Prop} (d : Side) (X : List (Vec f R))
    (h : Does env c (Silent env c) (Silent env c) (fun _ => True) p Q) :
    Safe (Silent env c) (Proper env c) (fun _ => False) (fun a s => Q a s ∧ TableIs env c d X s) p (TableIs env c d X) := by
  have hf := Safe.frame (tableIs_stable env c d X) (tableIs_stable env c d X) h
  refine Safe.guar_mono (fun _ _ => Silent.proper) (Safe.weaken (fun a s hs => ⟨hs.1.2, hs.2⟩)
    (Safe.pre (tableIs_stable env c d X) ?_ hf))
  exact fun s hs => ⟨⟨hs.1, trivial⟩, hs⟩

theorem writer_rows {d : Side} (ht : c.touched d = some fun _ => True) (p : Nat) : ∀ (rows : List (Nat × Vec f R))
    (X : List (Vec f R)),
    Safe (Silent env c) (Proper env c) (fun _ => False)
      (fun r s => r = .ok () ∧ TableIs env c d (assignRows X rows) s) (storeRows d p rows)
      (fun s => TableIs env c d X s ∧ s.cur d = p)
  | [], X => Safe.done (tableIs_at_stable env c d X p) fun s hs => ⟨rfl, hs.1⟩
  | (i, x) :: rest, X => by
    refine Safe.bind (post := fun _ s => TableIs env c d (X.set i x) s ∧ s.cur d = p) (fun _ => writer_rows ht p rest (X.set i x)) ?_
    refine Safe.write (tableIs_at_stable env c d X p) (tableIs_at_stable env c d (X.set i x) p) fun s hs => ?_
    have hlt : p < (s.tabs d).length := hs.2 ▸ hs.1.1.cur d
    have h := sound_tabs hs.1.1 d ((s.tabs d).set p ((s.tab d p).set i x)) (s.cur d) ?_ (by simpa using hs.1.1.cur d) (by simp)
    · simp only [Function.update_eq_self] at h
      refine ⟨fun _ => h, ⟨h.1, ?_⟩, hs.2⟩
      have hX : s.tab d p = X := by rw [← hs.2]; exact hs.1.2
      show ((Function.update s.tabs d ((s.tabs d).set p ((s.tab d p).set i x))) d).getD (s.cur d) [] = X.set i x
      rw [Function.update_self, hs.2, List.getD_eq_getElem?_getD, List.getElem?_set_self hlt, hX]
      rfl
    · intro t htm
      rcases List.mem_or_eq_of_mem_set htm with h | rfl
      · exact hs.1.1.tabs d t h
      · exact (hs.1.1.tabs d _ (Shared.tab_mem hlt)).set ht trivial x

theorem writer_grow {d : Side} (ht : c.touched d = some fun _ => True) (extra : Nat) (X : List (Vec f R)) :
    Safe (Silent env c) (Proper env c) (fun _ => False)
      (fun r s => r = .ok () ∧ TableIs env c d (X ++ List.replicate extra (fun _ => 0)) s) (growProg d extra)
      (TableIs env c d X) := by
  unfold growProg tableProg
  refine Safe.bind (post := fun t s => t = X ∧ TableIs env c d X s) (fun t => ?_) ?_
  · refine Safe.bind (post := fun _ s => t = X ∧ TableIs env c d (X ++ List.replicate extra (fun _ => 0)) s) (fun _ => ?_) ?_
    · exact Safe.done (fun s s' hs hr => ⟨hs.1, tableIs_stable env c d _ s s' hs.2 hr⟩) fun s hs => ⟨rfl, hs.2⟩
    · refine Safe.write (fun s s' hs hr => ⟨hs.1, tableIs_stable env c d _ s s' hs.2 hr⟩)
        (fun s s' hs hr => ⟨hs.1, tableIs_stable env c d _ s s' hs.2 hr⟩) fun s hs => ?_
      obtain ⟨rfl, hs⟩ := hs
      have h := sound_tabs hs.1 d (s.tabs d ++ [t ++ List.replicate extra (fun _ => 0)]) (s.tabs d).length ?_ (by simp) (by simp)
      · refine ⟨fun _ => h, rfl, h.1, ?_⟩
        simp [Shared.tab]
      · intro t' ht'
        simp only [List.mem_append, List.mem_singleton] at ht'
        rcases ht' with h | rfl
        · exact hs.1.tabs d t' h
        · rw [← hs.2]
          exact (hs.1.tabs d _ (Shared.tab_mem (hs.1.cur d))).append ht _
  · refine Safe.bind (post := fun p s => TableIs env c d X s ∧ s.cur d = p) (fun p => ?_) ?_
    · refine Safe.read (tableIs_at_stable env c d X p) (fun t s s' hs hr => ⟨hs.1, tableIs_stable env c d _ s s' hs.2 hr⟩)
        (fun s _ hs => ⟨hs, Grows.refl c s⟩) fun s hs => ⟨?_, hs.1⟩
      rw [← hs.2]
      exact hs.1.2
    · exact Safe.read (tableIs_stable env c d X) (fun p => tableIs_at_stable env c d X p)
        (fun s _ hs => ⟨hs, Grows.refl c s⟩) fun s hs => ⟨hs, rfl⟩

theorem foldl_max_le : ∀ (l : List Nat) (a : Nat), a ≤ l.foldl max a ∧ ∀ i ∈ l, i ≤ l.foldl max a
  | [], a => ⟨le_refl _, by simp⟩
  | x :: l, a => by
    obtain ⟨h1, h2⟩ := foldl_max_le l (max a x)
    simp only [List.foldl_cons]
    refine ⟨le_trans (le_max_left _ _) h1, fun i hi => ?_⟩
    rcases List.mem_cons.mp hi with rfl | hi
    · exact le_trans (le_max_right _ _) h1
    · exact h2 i hi

theorem pyMax_le {ids : List Nat} {m : Nat} (h : pyMax ids = .ok m) : ∀ i ∈ ids, i ≤ m := by
  cases ids with
  | nil => cases h
  | cons i is =>
    cases h
    intro j hj
    obtain ⟨h1, h2⟩ := foldl_max_le is i
    rcases List.mem_cons.mp hj with rfl | hj
    · exact h1
    · exact h2 j hj

theorem growTo_gt (m : Nat) (X : List (Vec f R)) : m < (growTo m X).length := by
  unfold growTo
  split_ifs with h
  · simp
    omega
  · omega

theorem writer_store {d : Side} (ht : c.touched d = some fun _ => True) (ids : List Nat) (xs X : List (Vec f R)) (m : Nat)
    (hm : pyMax ids = .ok m) :
    Safe (Silent env c) (Proper env c) (fun _ => False)
      (fun r s => r = .ok () ∧ TableIs env c d (assignRows (growTo m X) (ids.zip xs)) s) (storeProg d ids xs)
      (TableIs env c d X) := by
  have hrefl : ∀ s, Proper env c s s := fun s hs => ⟨hs, Grows.refl c s⟩
  have hst : ∀ (φ : Prop) Y, Stable (Silent env c) fun s => φ ∧ TableIs env c d Y s :=
    fun φ Y s s' hs hr => ⟨hs.1, tableIs_stable env c d Y s s' hs.2 hr⟩
  unfold storeProg
  rw [hm]
  refine Safe.bind (post := fun n s => n = X.length ∧ TableIs env c d X s) (fun n => ?_)
    (Safe.read (tableIs_stable env c d X) (fun n => hst _ X) (fun s _ => hrefl s) fun s hs => ⟨by rw [hs.2], hs⟩)
  by_cases hn : n = X.length
  swap
  · exact Safe.of_false (fun s hs => hn hs.1) _
  subst hn
  simp only
  refine Safe.andThen (errs := fun _ _ => False) (post := fun _ s => TableIs env c d (growTo m X) s) ?_
    (fun _ _ _ hf => hf.elim) (fun _ _ hf => hf.elim) fun _ => ?_
  · refine Safe.pre (hst _ X) (fun s hs => hs.2) ?_
    unfold growTo
    split_ifs with h
    · refine (writer_grow ht _ X).weaken ?_
      rintro r s ⟨rfl, hs⟩
      exact hs
    · exact Safe.done (tableIs_stable env c d X) fun s hs => hs
  refine Safe.bind (post := fun p s => TableIs env c d (growTo m X) s ∧ s.cur d = p) (fun p => ?_)
    (Safe.read (tableIs_stable env c d _) (fun p => tableIs_at_stable env c d _ p) (fun s _ => hrefl s) fun s hs => ⟨hs, rfl⟩)
  refine Safe.andThen (errs := fun _ _ => False) (post := fun _ s => TableIs env c d (growTo m X) s ∧ s.cur d = p) ?_
    (fun _ _ _ hf => hf.elim) (fun _ _ hf => hf.elim) fun _ => ?_
  · refine Safe.read (tableIs_at_stable env c d _ p) (fun r => ?_) (fun s _ => hrefl s) fun s hs => ?_
    · cases r with
      | error e => exact fun _ _ hf => hf.elim
      | ok _ => exact tableIs_at_stable env c d _ p
    · have hall : ids.all (fun i => decide (i < (s.tab d p).length)) = true := by
        rw [List.all_eq_true]
        intro i hi
        have h1 := pyMax_le hm i hi
        have h2 : s.tab d p = growTo m X := by rw [← hs.2]; exact hs.1.2
        have h3 := growTo_gt m X
        rw [h2]
        simpa using lt_of_le_of_lt h1 h3
      rw [if_pos hall]
      exact hs
  refine Safe.andThen (errs := fun _ _ => False) (post := fun _ s => TableIs env c d (assignRows (growTo m X) (ids.zip xs)) s) ?_
    (fun _ _ _ hf => hf.elim) (fun _ _ hf => hf.elim) fun _ => ?_
  · refine (writer_rows ht p _ _).weaken ?_
    rintro r s ⟨rfl, hs⟩
    exact hs
  refine Safe.bind (post := fun _ s => TableIs env c d (assignRows (growTo m X) (ids.zip xs)) s) (fun _ => ?_) ?_
  · refine Safe.bind (post := fun _ s => TableIs env c d (assignRows (growTo m X) (ids.zip xs)) s) (fun _ => ?_) ?_
    · exact Safe.done (tableIs_stable env c d _) fun s hs => ⟨rfl, hs⟩
    · refine Safe.write (tableIs_stable env c d _) (tableIs_stable env c d _) fun s hs => ?_
      have hq := (sound_clear hs.1 d (by simp [ht])).2
      exact ⟨fun _ => ⟨hq.1, hq.2.1⟩, hq.1, hs.2⟩
  · refine Safe.write (tableIs_stable env c d _) (tableIs_stable env c d _) fun s hs => ?_
    have hq := (sound_clear hs.1 d (by simp [ht])).1
    exact ⟨fun _ => ⟨hq.1, hq.2.1⟩, hq.1, hs.2⟩

end

end Implicit
