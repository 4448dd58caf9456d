import Verif.Lemmas.SharedFactors
import Verif.Lemmas.Queries
/-!
# Queries of a thread while other threads use the model
-/

set_option linter.unusedSectionVars false

namespace Implicit

variable {R : Type} [LinearOrder R] [Field R] {f : Nat}

theorem kept_imp {c : Setting f R} {φ : Prop} {P : Shared f R → Prop} (h : φ → Kept c P) : Kept c fun s => φ → P s :=
  fun s s' hg hs hφ => h hφ s s' hg (hs hφ)

theorem kept_exists {c : Setting f R} {α : Type} {P : α → Shared f R → Prop} (h : ∀ a, Kept c (P a)) :
    Kept c fun s => ∃ a, P a s := fun s s' hg ⟨a, hs⟩ => ⟨a, h a s s' hg hs⟩

macro "kept" : tactic => `(tactic| repeat' first
  | exact kept_pure _ _ | exact kept_tab _ _ _ | exact kept_array _ _ _ | exact kept_norms _ _ (by assumption)
  | exact kept_gram _ _ (by assumption) | refine kept_and ?_ ?_ | refine kept_imp fun _ => ?_ | refine kept_exists fun _ => ?_)

section

variable {env : Env f R} {c : Setting f R} {rely guar : Shared f R → Shared f R → Prop}
  (hR : ∀ s s', rely s s' → Proper env c s s') (hG : ∀ s s', Sound env c s → Quiet env c s s' → guar s s')

include hR hG

theorem does_table (d : Side) : Does env c rely guar (fun _ => True) (tableProg d) fun t _ => c.Agrees d t := by
  unfold tableProg
  refine Does.bind (Q := fun p s => p < (s.tabs d).length)
    (Does.read hR hG (by kept) (fun _ => by kept) fun s hs _ => hs.cur d) fun p => ?_
  exact Does.read hR hG (by kept) (fun _ => by kept) fun s hs hp => hs.tabs d _ (Shared.tab_mem hp)

theorem does_notNone_norms (d : Side) : Does env c rely guar (fun s => c.touched d = none → s.norms d ≠ none)
    (.read fun s => notNone (s.norms d))
    fun r s => c.touched d = none → ∃ n, r = .ok n ∧ n < (s.arrays d).length := by
  refine Does.read hR hG (by kept) (fun _ => by kept) fun s hs hn ht => ?_
  cases h : s.norms d with
  | none => exact absurd h (hn ht)
  | some n => exact ⟨n, rfl, hs.norms d ht n h⟩

theorem does_fixNorms (d : Side) : Does env c rely guar (fun s => c.touched d = none → s.norms d ≠ none)
    (fixNorms env.eps d) fun r s => c.touched d = none → r = .ok () ∧ s.norms d ≠ none := by
  unfold fixNorms
  refine Does.bind (Q := fun r s => c.touched d = none → s.norms d ≠ none ∧ ∃ p, r = .ok p ∧ p < (s.arrays d).length) ?_ fun r => ?_
  · refine Does.read hR hG (by kept) (fun _ => by kept) fun s hs hn ht => ⟨hn ht, ?_⟩
    cases h : s.norms d with
    | none => exact absurd h (hn ht)
    | some n => exact ⟨n, rfl, hs.norms d ht n h⟩
  · cases r with
    | error e =>
      refine Does.done hR (by kept) fun s _ h ht => ?_
      obtain ⟨-, p, hp, -⟩ := h ht
      cases hp
    | ok p =>
      refine Does.bind (Q := fun o s => c.touched d = none → s.norms d ≠ none ∧ p < (s.arrays d).length ∧
        ∃ m, (m = (c.T d).map env.norm ∨ m = safeNorms env.norm env.eps (c.T d)) ∧ o = some (m.map fun x => decide (x = 0))) ?_
        fun o => ?_
      · refine Does.read hR hG (by kept) (fun _ => by kept) fun s hs h ht => ?_
        obtain ⟨hn, q, hq, hlt⟩ := h ht
        cases hq
        refine ⟨hn, hlt, ?_⟩
        cases hn' : s.norms d with
        | none => exact absurd hn' hn
        | some q => exact ⟨_, hs.arrays d ht _ (Shared.array_mem (hs.norms d ht q hn')), rfl⟩
      · cases o with
        | none =>
          refine Does.done hR (by kept) fun s _ h ht => ?_
          obtain ⟨-, -, m, -, hm⟩ := h ht
          cases hm
        | some mask =>
          refine Does.atomic hR (by kept) (fun _ => by kept) fun s hs h => ?_
          have hq : Quiet env c s (if (s.array d p).length = mask.length then
              (s.setArray d p (patchNorms env.eps mask (s.array d p)), Except.ok (ε := Err) ()) else (s, .error .indexError)).1 := by
            split_ifs
            · refine quiet_setArray hs d p _ fun ht => ?_
              obtain ⟨-, hlt, m, hm, e⟩ := h ht
              cases e
              rcases patch_kinds env.eps env.norm (c.T d) (s.array d p) m (hs.arrays d ht _ (Shared.array_mem hlt)) hm with
                ⟨e1, e2⟩ | e1
              · exact .inl ⟨e1, e2.trans e1.symm⟩
              · exact .inr e1
            · exact ⟨hs, Grows.refl c s, rfl, rfl⟩
          refine ⟨hG _ _ hs hq, hq.1, fun ht => ?_⟩
          obtain ⟨hn, hlt, m, hm, e⟩ := h ht
          cases e
          have hl : (s.array d p).length = (m.map fun x => decide (x = 0)).length := by
            have h1 : (s.array d p).length = (c.T d).length := by
              rcases hs.arrays d ht _ (Shared.array_mem hlt) with e | e <;> rw [e] <;> simp [safeNorms]
            have h2 : m.length = (c.T d).length := by
              rcases hm with e | e <;> rw [e] <;> simp [safeNorms]
            rw [h1, List.length_map, h2]
          rw [if_pos hl]
          exact ⟨rfl, hn⟩

theorem does_norms (d : Side) : Does env c rely guar (fun _ => True) (normsProg env d)
    fun r s => c.touched d = none → ∃ n, r = .ok n ∧ n < (s.arrays d).length := by
  unfold normsProg
  refine Does.bind (Q := fun o s => c.touched d = none → (o = none → ¬ c.warm d) ∧ (o ≠ none → s.norms d ≠ none)) ?_ fun o => ?_
  · exact Does.read hR hG (by kept) (fun _ => by kept) fun s hs _ ht => ⟨fun h hw => hs.warm d ht hw h, id⟩
  · cases o with
    | some p =>
      exact Does.pre hR (does_notNone_norms hR hG d) (by kept) fun s h ht => (h ht).2 (by simp)
    | none =>
      refine Does.bind (Q := fun p s => (c.touched d = none → ¬ c.warm d) ∧ p < (s.tabs d).length) ?_ fun p => ?_
      · exact Does.read hR hG (by kept) (fun _ => by kept) fun s hs h => ⟨fun ht => (h ht).1 rfl, hs.cur d⟩
      refine Does.bind (Q := fun t _ => (c.touched d = none → ¬ c.warm d) ∧ c.Agrees d t) ?_ fun t => ?_
      · exact Does.read hR hG (by kept) (fun _ => by kept) fun s hs h => ⟨h.1, hs.tabs d _ (Shared.tab_mem h.2)⟩
      refine Does.bind (Q := fun _ s => c.touched d = none → s.norms d ≠ none) ?_ fun _ => ?_
      · refine Does.write hR (by kept) (by kept) fun s hs h => ?_
        have hq := quiet_publish hs d (t.map env.norm) fun ht => ⟨h.1 ht, by
          have := h.2
          unfold Setting.Agrees at this
          rw [ht] at this
          simp only at this
          rw [this]⟩
        exact ⟨hG _ _ hs hq, hq.1, fun _ => by simp [Shared.publish]⟩
      · refine Does.andThen hR (E := fun _ => c.touched d ≠ none) (Q := fun _ s => c.touched d = none → s.norms d ≠ none)
          ((does_fixNorms hR hG d).weaken ?_) (fun e s h ht => absurd ht h) fun _ => does_notNone_norms hR hG d
        intro r s h
        cases r with
        | error e => exact fun ht => by cases (h ht).1
        | ok a => exact fun ht => (h ht).2

/-- `normsProg` with a factor matrix in hand. -/
theorem does_normsTab (hP : ∀ s s', guar s s' → Proper env c s s') (d d' : Side) (p : Nat) : Does env c rely guar (fun s => p < (s.tabs d').length) (normsProg env d)
    fun r s => match r with
      | .error _ => c.touched d ≠ none
      | .ok n => p < (s.tabs d').length ∧ (c.touched d = none → n < (s.arrays d).length) := by
  refine Does.frame hR hP (kept_tab c d' p) (does_norms hR hG d) ?_
  intro r s h hp
  cases r with
  | error e =>
    intro ht
    obtain ⟨n, hn, -⟩ := h ht
    cases hn
  | ok n =>
    refine ⟨hp, fun ht => ?_⟩
    obtain ⟨m, hm, hlt⟩ := h ht
    cases hm
    exact hlt

theorem does_gram (d : Side) : Does env c rely guar (fun _ => True) (gramProg d)
    fun r _ => c.touched d = none → r = .ok (Implicit.gram (c.T d)) := by
  unfold gramProg
  have hend : Does env c rely guar (fun s => c.touched d = none → s.gram d ≠ none) (.read fun s => notNone (s.gram d))
      fun r _ => c.touched d = none → r = .ok (Implicit.gram (c.T d)) := by
    refine Does.read hR hG (by kept) (fun _ => by kept) fun s hs hn ht => ?_
    cases h : s.gram d with
    | none => exact absurd h (hn ht)
    | some G => rw [hs.gram d ht G h]; rfl
  refine Does.bind (Q := fun o s => c.touched d = none → o ≠ none → s.gram d ≠ none) ?_ fun o => ?_
  · exact Does.read hR hG (by kept) (fun _ => by kept) fun s hs _ ht => id
  · cases o with
    | some p => exact Does.pre hR hend (by kept) fun s h ht => h ht (by simp)
    | none =>
      refine Does.bind (Q := fun p s => p < (s.tabs d).length) ?_ fun p => ?_
      · exact Does.read hR hG (by kept) (fun _ => by kept) fun s hs _ => hs.cur d
      refine Does.bind (Q := fun t _ => c.Agrees d t) ?_ fun t => ?_
      · exact Does.read hR hG (by kept) (fun _ => by kept) fun s hs h => hs.tabs d _ (Shared.tab_mem h)
      refine Does.bind (Q := fun _ s => c.touched d = none → s.gram d ≠ none) ?_ fun _ => hend
      refine Does.write hR (by kept) (by kept) fun s hs h => ?_
      have hq := quiet_gram hs d (Implicit.gram t) fun ht => by
        unfold Setting.Agrees at h
        rw [ht] at h
        simp only at h
        rw [h]
      exact ⟨hG _ _ hs hq, hq.1, fun _ => by simp⟩

end

theorem Setting.Agrees.eq {c : Setting f R} {d : Side} {t : List (Vec f R)} (h : c.Agrees d t) (ht : c.touched d = none) :
    t = c.T d := by
  unfold Setting.Agrees at h
  rw [ht] at h
  exact h

/-- The model at the start, without caches. -/
def Setting.model (c : Setting f R) : MFState f R := freshState ⟨c.T .user, c.T .item⟩

section

variable {env : Env f R} {c : Setting f R} {rely guar : Shared f R → Shared f R → Prop}
  (hR : ∀ s s', rely s s' → Proper env c s s') (hG : ∀ s s', Sound env c s → Quiet env c s s' → guar s s')

include hR hG

theorem does_recalculateUser (ids : Ids) (rows : SpRows R) :
    Does env c rely guar (fun _ => True) (recalculateUserProg env ids rows)
      fun r _ => c.touched .item = none → r = (recalculateUser env c.model ids rows).1 := by
  unfold recalculateUserProg
  split_ifs with h
  · refine Does.done hR (by kept) fun s _ _ _ => ?_
    unfold recalculateUser
    rw [if_pos h]
  · refine Does.andThen hR (E := fun _ => c.touched .item ≠ none) (Q := fun G _ => c.touched .item = none → G = gram (c.T .item))
      ((does_gram hR hG .item).weaken ?_) (fun e s he ht => absurd ht he) fun G => ?_
    · intro r s h
      cases r with
      | error e => exact fun ht => by cases h ht
      | ok G => exact fun ht => Except.ok.inj (h ht)
    refine Does.assume' fun hGr => ?_
    refine Does.bind (does_table hR hG .item) fun Y => ?_
    refine Does.done hR (by kept) fun s _ hY ht => ?_
    rw [hGr ht, hY.eq ht]
    unfold recalculateUser
    rw [if_neg h, if_neg h]
    rfl

theorem does_recalculateItem (ids : Ids) (rows : SpRows R) :
    Does env c rely guar (fun _ => True) (recalculateItemProg env ids rows)
      fun r _ => c.touched .user = none → r = (recalculateItem env c.model ids rows).1 := by
  unfold recalculateItemProg
  refine Does.andThen hR (E := fun _ => c.touched .user ≠ none) (Q := fun G _ => c.touched .user = none → G = gram (c.T .user))
    ((does_gram hR hG .user).weaken ?_) (fun e s he ht => absurd ht he) fun G => ?_
  · intro r s h
    cases r with
    | error e => exact fun ht => by cases h ht
    | ok G => exact fun ht => Except.ok.inj (h ht)
  refine Does.assume' fun hGr => ?_
  refine Does.bind (does_table hR hG .user) fun Y => ?_
  refine Does.done hR (by kept) fun s _ hY ht => ?_
  rw [hGr ht, hY.eq ht]
  rfl

end

/-- The rows of the given ids cannot change. -/
def Setting.Still (c : Setting f R) (d : Side) (ids : List Nat) : Prop :=
  ∀ W, c.touched d = some W → ∀ i ∈ ids, i < (c.T d).length ∧ ¬ W i

theorem gather_congr {α : Type} {l l' : List α} : ∀ {is : List Nat}, (∀ i ∈ is, l[i]? = l'[i]?) → gather l is = gather l' is
  | [], _ => rfl
  | i :: is, h => by
    unfold gather
    rw [h i (by simp), gather_congr (is := is) fun j hj => h j (by simp [hj])]

theorem Setting.Agrees.gather {c : Setting f R} {d : Side} {t : List (Vec f R)} (h : c.Agrees d t) {ids : List Nat}
    (hs : c.Still d ids) : Implicit.gather t ids = Implicit.gather (c.T d) ids := by
  cases ht : c.touched d with
  | none => rw [h.eq ht]
  | some W =>
    refine gather_congr fun i hi => ?_
    unfold Setting.Agrees at h
    rw [ht] at h
    exact h.2 i (hs W ht i hi).1 (hs W ht i hi).2

theorem recommend_gather (H : HeapImpl (R × Nat) pairLt) (neginf : R) (X X' Y : List (Vec f R))
    (rc rc' : SpRows R → Except Err (List (Vec f R))) (ids : Ids) (userItems : Option (SpRows R)) (N : Nat) (fl : Bool)
    (fi : Option PyFilter) (items : Option (List Int)) (h : gather X ids.toList = gather X' ids.toList) :
    recommend H neginf ⟨X, Y⟩ rc ids userItems N fl fi false items = recommend H neginf ⟨X', Y⟩ rc' ids userItems N fl fi false items := by
  unfold recommend userFactor
  simp only [Bool.false_eq_true, if_false, h]
  rfl

/-- What the answer of a query depends on is not updated by any thread, and no norm needs to be replaced. -/
def Setting.Protected (env : Env f R) (c : Setting f R) : Query f R → Prop
  | .recommend ids _ _ _ _ recalculate _ => c.touched .item = none ∧ (recalculate = false → c.Still .user ids.toList)
  | .similarItems _ _ _ _ => c.touched .item = none ∧ c.Ready env .item
  | .similarItemsRecalc _ _ _ _ _ => c.touched .item = none ∧ c.touched .user = none ∧ c.Ready env .item
  | .similarUsers _ _ _ _ => c.touched .user = none ∧ c.Ready env .user
  | .recalculateUser _ _ => c.touched .item = none
  | .recalculateItem _ _ => c.touched .user = none
  | .explain _ _ _ _ _ => c.touched .item = none

section

variable {env : Env f R} {c : Setting f R} {rely guar : Shared f R → Shared f R → Prop}
  (hR : ∀ s s', rely s s' → Proper env c s s') (hG : ∀ s s', Sound env c s → Quiet env c s s' → guar s s')

include hR hG

theorem does_recommend (ids : Ids) (userItems : Option (SpRows R)) (N : Nat) (fl : Bool) (fi : Option PyFilter) (rc : Bool)
    (items : Option (List Int)) :
    Does env c rely guar (fun _ => True) (recommendProg env ids userItems N fl fi rc items)
      fun r _ => c.Protected env (.recommend ids userItems N fl fi rc items) →
        r = recommend env.H env.neginf ⟨c.T .user, c.T .item⟩ (fun rows => (recalculateUser env c.model ids rows).1) ids userItems N
          fl fi rc items := by
  unfold recommendProg
  cases hc : checkUserItems ids userItems (fl || rc) with
  | error e =>
    refine Does.done hR (by kept) fun s _ _ _ => ?_
    unfold recommend
    rw [hc]
    rfl
  | ok u =>
    simp only
    cases rc with
    | true =>
      simp only [if_true]
      obtain ⟨rows, rfl⟩ : ∃ rows, userItems = some rows := by
        cases userItems with
        | none => simp [checkUserItems] at hc
        | some rows => exact ⟨rows, rfl⟩
      refine Does.andThen hR (E := fun e => c.touched .item = none → (recalculateUser env c.model ids rows).1 = .error e)
        (Q := fun xs _ => c.touched .item = none → (recalculateUser env c.model ids rows).1 = .ok xs)
        ((does_recalculateUser hR hG ids rows).weaken ?_) ?_ fun xs => ?_
      · intro r s h
        cases r with
        | error e => exact fun ht => (h ht).symm
        | ok xs => exact fun ht => (h ht).symm
      · intro e s he hp
        unfold recommend userFactor
        simp only [hc, if_true, he hp.1]
        rfl
      · refine Does.assume' fun hxs => ?_
        refine Does.bind (does_table hR hG .item) fun Y => ?_
        refine Does.done hR (by kept) fun s _ hY hp => ?_
        rw [hY.eq hp.1]
        unfold recommend userFactor
        simp only [if_true, hxs hp.1]
        rfl
    | false =>
      simp only [Bool.false_eq_true, if_false]
      refine Does.bind (Q := fun p s => p < (s.tabs .user).length)
        (Does.read hR hG (by kept) (fun _ => by kept) fun s hs _ => hs.cur .user) fun p => ?_
      refine Does.bind (Q := fun X s => c.Agrees .user X ∧ p < (s.tabs .user).length)
        (Does.read hR hG (by kept) (fun _ => by kept) fun s hs hp => ⟨hs.tabs _ _ (Shared.tab_mem hp), hp⟩) fun X => ?_
      refine Does.assume fun hX => ?_
      cases hg : gather X ids.toList with
      | error e =>
        refine Does.done hR (by kept) fun s _ _ hp => ?_
        have hg' := (hX.gather (hp.2 rfl)).symm.trans hg
        unfold recommend userFactor
        simp only [hc, Bool.false_eq_true, if_false, hg']
        rfl
      | ok xs =>
        simp only
        refine Does.bind (Q := fun Y s => c.Agrees .item Y ∧ p < (s.tabs .user).length) ?_ fun Y => ?_
        · unfold tableProg
          refine Does.bind (Q := fun q s => q < (s.tabs .item).length ∧ p < (s.tabs .user).length)
            (Does.read hR hG (by kept) (fun _ => by kept) fun s hs hp => ⟨hs.cur .item, hp⟩) fun q => ?_
          exact Does.read hR hG (by kept) (fun _ => by kept) fun s hs hp => ⟨hs.tabs _ _ (Shared.tab_mem hp.1), hp.2⟩
        refine Does.assume fun hY => ?_
        cases ids with
        | many us =>
          refine Does.done hR (by kept) fun s _ _ hp => ?_
          rw [hY.eq hp.1]
          exact recommend_gather _ _ _ _ _ _ _ _ _ _ _ _ _ (hX.gather (hp.2 rfl))
        | one u =>
          refine Does.bind (Q := fun X' _ => c.Agrees .user X')
            (Does.read hR hG (by kept) (fun _ => by kept) fun s hs hp => hs.tabs _ _ (Shared.tab_mem hp)) fun X' => ?_
          refine Does.done hR (by kept) fun s _ hX' hp => ?_
          rw [hY.eq hp.1]
          exact recommend_gather _ _ _ _ _ _ _ _ _ _ _ _ _ (hX'.gather (hp.2 rfl))

end

theorem gather_err {α : Type} {l : List α} : ∀ {is : List Nat} {e : Err}, gather l is = .error e → e = .indexError
  | [], e, h => by cases h
  | i :: is, e, h => by
    unfold gather at h
    cases hi : l[i]? with
    | none => rw [hi] at h; cases h; rfl
    | some x =>
      rw [hi] at h
      cases hg : gather l is with
      | error e' =>
        simp only [hg] at h
        cases h
        exact gather_err hg
      | ok xs =>
        simp only [hg] at h
        cases h

section

variable {env : Env f R} {c : Setting f R} {rely guar : Shared f R → Shared f R → Prop}
  (hR : ∀ s s', rely s s' → Proper env c s s') (hG : ∀ s s', Sound env c s → Quiet env c s s' → guar s s')

include hR hG

/-- The end of `similar_items` and `similar_users`. -/
theorem does_similarEnd (d : Side) (ids : Ids) (q : Nat → List (Vec f R) → Except Err (List (Vec f R))) (p n N : Nat)
    (fi : Option PyFilter) (items : Option (List Int))
    (hq : ∀ t, c.Agrees d t → c.touched d = none → q p t = gather (c.T d) ids.toList) :
    Does env c rely guar (fun s => p < (s.tabs d).length ∧ (c.touched d = none → n < (s.arrays d).length))
      (similarEnd env d ids q p n N fi items)
      fun r _ => c.touched d = none → c.Ready env d →
        r = similar env.H env.neginf (c.T d) (safeNorms env.norm env.eps (c.T d)) ids N fi items := by
  unfold similarEnd
  refine Does.andThen hR (E := fun e => c.touched d = none → c.Ready env d →
      gather (safeNorms env.norm env.eps (c.T d)) ids.toList = .error e)
    (Q := fun qn s => (c.touched d = none → c.Ready env d → gather (safeNorms env.norm env.eps (c.T d)) ids.toList = .ok qn) ∧
      p < (s.tabs d).length ∧ (c.touched d = none → n < (s.arrays d).length)) ?_ ?_ fun qn => ?_
  · refine Does.read hR hG (by kept) (fun r => by cases r <;> kept) fun s hs h => ?_
    cases hg : gather (s.array d n) ids.toList with
    | error e =>
      intro ht hr
      rw [← hs.ready d ht hr _ (Shared.array_mem (h.2 ht)), hg]
    | ok qn => exact ⟨fun ht hr => by rw [← hs.ready d ht hr _ (Shared.array_mem (h.2 ht)), hg], h⟩
  · intro e s he ht hr
    unfold similar
    have h1 := he ht hr
    cases hg : gather (c.T d) ids.toList with
    | error e' =>
      rw [gather_err h1, gather_err hg]
      rfl
    | ok xs =>
      simp only [bind, Except.bind, h1]
  · refine Does.assume fun hqn => ?_
    refine Does.bind (Q := fun t s => c.Agrees d t ∧ p < (s.tabs d).length ∧ (c.touched d = none → n < (s.arrays d).length))
      (Does.read hR hG (by kept) (fun _ => by kept) fun s hs h => ⟨hs.tabs _ _ (Shared.tab_mem h.1), h⟩) fun t => ?_
    refine Does.assume fun ht => ?_
    refine Does.bind (Q := fun ns s => (c.touched d = none → c.Ready env d → ns = safeNorms env.norm env.eps (c.T d)) ∧
        p < (s.tabs d).length)
      (Does.read hR hG (by kept) (fun _ => by kept) fun s hs h =>
        ⟨fun ht hr => hs.ready d ht hr _ (Shared.array_mem (h.2 ht)), h.1⟩) fun ns => ?_
    refine Does.assume fun hns => ?_
    refine Does.andThen hR (E := fun e => c.touched d = none → gather (c.T d) ids.toList = .error e)
      (Q := fun xs _ => c.touched d = none → gather (c.T d) ids.toList = .ok xs) ?_ ?_ fun xs => ?_
    · refine Does.read hR hG (by kept) (fun r => by cases r <;> kept) fun s hs h => ?_
      cases hg : q p (s.tab d p) with
      | error e => exact fun ht => (hq _ (hs.tabs _ _ (Shared.tab_mem h)) ht).symm.trans hg
      | ok xs => exact fun ht => (hq _ (hs.tabs _ _ (Shared.tab_mem h)) ht).symm.trans hg
    · intro e s he ht hr
      unfold similar
      rw [he ht]
      rfl
    · refine Does.done hR (by kept) fun s _ hxs htd hr => ?_
      unfold similar
      rw [hxs htd]
      simp only [bind, Except.bind, hqn htd hr]
      rw [ht.eq htd, hns htd hr]

theorem does_similarUsers (hP : ∀ s s', guar s s' → Proper env c s s') (ids : Ids) (N : Nat) (fi : Option PyFilter) (items : Option (List Int)) :
    Does env c rely guar (fun _ => True) (similarUsersProg env ids N fi items)
      fun r _ => c.touched .user = none → c.Ready env .user →
        r = similar env.H env.neginf (c.T .user) (safeNorms env.norm env.eps (c.T .user)) ids N fi items := by
  unfold similarUsersProg
  refine Does.bind (Q := fun p s => p < (s.tabs .user).length)
    (Does.read hR hG (by kept) (fun _ => by kept) fun s hs _ => hs.cur .user) fun p => ?_
  refine Does.andThen hR (E := fun _ => c.touched .user ≠ none)
    (Q := fun n s => p < (s.tabs .user).length ∧ (c.touched .user = none → n < (s.arrays .user).length)) ?_
    (fun e s he ht => absurd ht he) fun n =>
      does_similarEnd hR hG .user ids _ p n N fi items fun t ht htd => by rw [ht.eq htd]
  exact (does_normsTab hR hG hP .user .user p).weaken fun r s h => by cases r <;> exact h

theorem does_similarItems (hP : ∀ s s', guar s s' → Proper env c s s') (ids : Ids) (N : Nat) (fi : Option PyFilter)
    (items : Option (List Int)) :
    Does env c rely guar (fun _ => True) (similarItemsProg env ids N fi items)
      fun r _ => c.touched .item = none → c.Ready env .item →
        r = similar env.H env.neginf (c.T .item) (safeNorms env.norm env.eps (c.T .item)) ids N fi items := by
  unfold similarItemsProg
  refine Does.bind (Q := fun p s => p < (s.tabs .item).length)
    (Does.read hR hG (by kept) (fun _ => by kept) fun s hs _ => hs.cur .item) fun p0 => ?_
  refine Does.andThen hR (E := fun e => c.touched .item = none → gather (c.T .item) ids.toList = .error e)
    (Q := fun xs s => (c.touched .item = none → gather (c.T .item) ids.toList = .ok xs) ∧ p0 < (s.tabs .item).length) ?_ ?_
    fun copy => ?_
  · refine Does.read hR hG (by kept) (fun r => by cases r <;> kept) fun s hs h => ?_
    have ha := hs.tabs _ _ (Shared.tab_mem h)
    cases hg : gather (s.tab .item p0) ids.toList with
    | error e => exact fun ht => by rw [← ha.eq ht, hg]
    | ok xs => exact ⟨fun ht => by rw [← ha.eq ht, hg], h⟩
  · intro e s he ht _
    unfold similar
    rw [he ht]
    rfl
  refine Does.assume fun hcopy => ?_
  refine Does.bind (Q := fun p s => p < (s.tabs .item).length ∧ p0 < (s.tabs .item).length)
    (Does.read hR hG (by kept) (fun _ => by kept) fun s hs h => ⟨hs.cur .item, h⟩) fun p => ?_
  refine Does.andThen hR (E := fun _ => c.touched .item ≠ none)
    (Q := fun n s => (p < (s.tabs .item).length ∧ p0 < (s.tabs .item).length) ∧
      (c.touched .item = none → n < (s.arrays .item).length)) ?_ (fun e s he ht => absurd ht he) fun n => ?_
  · refine Does.frame hR hP (by kept) (does_norms hR hG .item) ?_
    intro r s h hp
    cases r with
    | error e =>
      intro ht
      obtain ⟨n, hn, -⟩ := h ht
      cases hn
    | ok n =>
      refine ⟨hp, fun ht => ?_⟩
      obtain ⟨m, hm, hlt⟩ := h ht
      cases hm
      exact hlt
  cases ids with
  | many us =>
    exact Does.pre hR (does_similarEnd hR hG .item (.many us) _ p n N fi items fun t _ htd => (hcopy htd).symm)
      (by kept) fun s h => ⟨h.1.1, h.2⟩
  | one i =>
    simp only
    refine Does.andThen hR (E := fun e => c.touched .item = none → c.Ready env .item →
        gather (safeNorms env.norm env.eps (c.T .item)) (Ids.one i).toList = .error e)
      (Q := fun qn s => (c.touched .item = none → c.Ready env .item →
          gather (safeNorms env.norm env.eps (c.T .item)) (Ids.one i).toList = .ok qn) ∧
        (p < (s.tabs .item).length ∧ p0 < (s.tabs .item).length) ∧
        (c.touched .item = none → n < (s.arrays .item).length)) ?_ ?_ fun qn => ?_
    · refine Does.read hR hG (by kept) (fun r => by cases r <;> kept) fun s hs h => ?_
      cases hg : gather (s.array .item n) (Ids.one i).toList with
      | error e =>
        intro ht hr
        rw [← hs.ready .item ht hr _ (Shared.array_mem (h.2 ht)), hg]
      | ok qn => exact ⟨fun ht hr => by rw [← hs.ready .item ht hr _ (Shared.array_mem (h.2 ht)), hg], h⟩
    · intro e s he ht hr
      have h0 : gather (c.T .item) (Ids.one i).toList = .ok copy := hcopy ht
      have h1 : gather (safeNorms env.norm env.eps (c.T .item)) (Ids.one i).toList = .error e := he ht hr
      unfold similar
      simp only [bind, Except.bind, h0, h1]
    refine Does.assume fun hqn => ?_
    refine Does.bind (Q := fun t s => c.Agrees .item t ∧ p0 < (s.tabs .item).length ∧
        (c.touched .item = none → n < (s.arrays .item).length))
      (Does.read hR hG (by kept) (fun _ => by kept) fun s hs h =>
        ⟨hs.tabs _ _ (Shared.tab_mem h.1.1), h.1.2, h.2⟩) fun t => ?_
    refine Does.assume fun ht => ?_
    refine Does.bind (Q := fun ns s => (c.touched .item = none → c.Ready env .item →
        ns = safeNorms env.norm env.eps (c.T .item)) ∧ p0 < (s.tabs .item).length)
      (Does.read hR hG (by kept) (fun _ => by kept) fun s hs h =>
        ⟨fun ht hr => hs.ready .item ht hr _ (Shared.array_mem (h.2 ht)), h.1⟩) fun ns => ?_
    refine Does.assume fun hns => ?_
    refine Does.andThen hR (E := fun e => c.touched .item = none → gather (c.T .item) (Ids.one i).toList = .error e)
      (Q := fun xs _ => c.touched .item = none → gather (c.T .item) (Ids.one i).toList = .ok xs) ?_ ?_ fun xs => ?_
    · refine Does.read hR hG (by kept) (fun r => by cases r <;> kept) fun s hs h => ?_
      have ha := hs.tabs _ _ (Shared.tab_mem h)
      cases hg : gather (s.tab .item p0) (Ids.one i).toList with
      | error e => exact fun ht => by rw [← ha.eq ht, hg]
      | ok xs => exact fun ht => by rw [← ha.eq ht, hg]
    · intro e s he ht hr
      have h0 : gather (c.T .item) (Ids.one i).toList = .error e := he ht
      unfold similar
      simp only [bind, Except.bind, h0]
    · refine Does.done hR (by kept) fun s _ hxs htd hr => ?_
      have h0 : gather (c.T .item) (Ids.one i).toList = .ok xs := hxs htd
      have h1 : gather (safeNorms env.norm env.eps (c.T .item)) (Ids.one i).toList = .ok qn := hqn htd hr
      unfold similar
      simp only [bind, Except.bind, h0, h1]
      rw [ht.eq htd, hns htd hr]

theorem does_similarItemsRecalc (hP : ∀ s s', guar s s' → Proper env c s s') (ids : Ids) (rows : SpRows R) (N : Nat)
    (fi : Option PyFilter) (items : Option (List Int)) :
    Does env c rely guar (fun _ => True) (similarItemsRecalcProg env ids rows N fi items)
      fun r _ => c.touched .item = none → c.touched .user = none → c.Ready env .item →
        r = similarRecalc env.H env.neginf env.norm env.eps (c.T .item) (safeNorms env.norm env.eps (c.T .item))
          (fun rows => (recalculateItem env c.model ids rows).1) rows ids N fi items := by
  unfold similarItemsRecalcProg
  refine Does.andThen hR (E := fun e => c.touched .user = none → (recalculateItem env c.model ids rows).1 = .error e)
    (Q := fun xs _ => c.touched .user = none → (recalculateItem env c.model ids rows).1 = .ok xs)
    ((does_recalculateItem hR hG ids rows).weaken ?_) ?_ fun xs => ?_
  · intro r s h
    cases r with
    | error e => exact fun ht => (h ht).symm
    | ok xs => exact fun ht => (h ht).symm
  · intro e s he _ ht _
    unfold similarRecalc
    simp only [bind, Except.bind, he ht]
  refine Does.assume' fun hxs => ?_
  refine Does.bind (Q := fun p s => p < (s.tabs .item).length)
    (Does.read hR hG (by kept) (fun _ => by kept) fun s hs _ => hs.cur .item) fun p => ?_
  refine Does.andThen hR (E := fun _ => c.touched .item ≠ none)
    (Q := fun n s => p < (s.tabs .item).length ∧ (c.touched .item = none → n < (s.arrays .item).length))
    ((does_normsTab hR hG hP .item .item p).weaken fun r s h => by cases r <;> exact h)
    (fun e s he ht => absurd ht he) fun n => ?_
  refine Does.bind (Q := fun t s => c.Agrees .item t ∧ (c.touched .item = none → n < (s.arrays .item).length))
    (Does.read hR hG (by kept) (fun _ => by kept) fun s hs h => ⟨hs.tabs _ _ (Shared.tab_mem h.1), h.2⟩) fun t => ?_
  refine Does.assume fun ht => ?_
  refine Does.bind (Q := fun ns _ => c.touched .item = none → c.Ready env .item → ns = safeNorms env.norm env.eps (c.T .item))
    (Does.read hR hG (by kept) (fun _ => by kept) fun s hs h td hr => hs.ready .item td hr _ (Shared.array_mem (h td)))
    fun ns => ?_
  refine Does.done hR (by kept) fun s _ hns hi hu hr => ?_
  rw [ht.eq hi, hns hi hr]
  unfold similarRecalc
  simp only [bind, Except.bind, hxs hu]

theorem does_explain (userid : Nat) (rows : SpRows R) (itemid : Nat) (weights : Option (Mat f R)) (N : Nat) :
    Does env c rely guar (fun _ => True) (explainProg env userid rows itemid weights N)
      fun r _ => c.touched .item = none → r = (explain env c.model userid rows itemid weights N).1 := by
  unfold explainProg
  cases hrow : (applyAlpha env.p.alpha rows)[userid]? with
  | none =>
    cases weights with
    | some A =>
      refine Does.done hR (by kept) fun s _ _ _ => ?_
      unfold explain
      rw [hrow]
    | none =>
      refine Does.andThen hR (E := fun _ => c.touched .item ≠ none)
        (Q := fun G _ => c.touched .item = none → G = gram (c.T .item))
        ((does_gram hR hG .item).weaken ?_) (fun e s he ht => absurd ht he) fun G => ?_
      · intro r s h
        cases r with
        | error e => exact fun ht => by cases h ht
        | ok G => exact fun ht => Except.ok.inj (h ht)
      refine Does.done hR (by kept) fun s _ _ _ => ?_
      unfold explain
      rw [hrow]
  | some row =>
    cases weights with
    | some A =>
      refine Does.bind (does_table hR hG .item) fun Y => ?_
      refine Does.done hR (by kept) fun s _ hY ht => ?_
      rw [hY.eq ht]
      unfold explain
      rw [hrow]
      rfl
    | none =>
      refine Does.andThen hR (E := fun _ => c.touched .item ≠ none)
        (Q := fun G _ => c.touched .item = none → G = gram (c.T .item))
        ((does_gram hR hG .item).weaken ?_) (fun e s he ht => absurd ht he) fun G => ?_
      · intro r s h
        cases r with
        | error e => exact fun ht => by cases h ht
        | ok G => exact fun ht => Except.ok.inj (h ht)
      refine Does.assume' fun hGr => ?_
      refine Does.bind (does_table hR hG .item) fun Y => ?_
      refine Does.done hR (by kept) fun s _ hY ht => ?_
      rw [hGr ht, hY.eq ht]
      unfold explain
      rw [hrow]
      rfl

theorem does_map {α β : Type} {p : Thread f R α} {φ : Prop} {x : Except Err α} (g : α → β)
    (hp : Does env c rely guar (fun _ => True) p fun r _ => φ → r = x) :
    Does env c rely guar (fun _ => True) (p.andThen fun a => .done (.ok (g a))) fun r _ => φ → r = x.map g := by
  refine Does.bind hp fun r => ?_
  cases r with
  | error e => exact Does.done hR (by kept) fun s _ h hφ => by rw [← h hφ]; rfl
  | ok a => exact Does.done hR (by kept) fun s _ h hφ => by rw [← h hφ]; rfl

/-- A query whose answer does not depend on anything that is updated gives the answer of the model at the start. -/
theorem does_query (hP : ∀ s s', guar s s' → Proper env c s s') (q : Query f R) :
    Does env c rely guar (fun _ => True) (queryProg env q)
      fun r _ => c.Protected env q → r = (runQuery env c.model q).1 := by
  cases q with
  | recommend ids userItems N fl fi rc items =>
    exact does_map hR hG Result.answer (does_recommend hR hG ids userItems N fl fi rc items)
  | similarItems ids N fi items =>
    refine (does_map hR hG Result.answer (φ := c.touched .item = none ∧ c.Ready env .item) ((does_similarItems hR hG hP ids N fi items).weaken
      fun r s h hφ => h hφ.1 hφ.2)).weaken fun r s h hp => ?_
    rw [h hp]
    unfold runQuery
    cases hg : gather c.model.item ids.toList with
    | error e =>
      have hg' : gather (c.T .item) ids.toList = .error e := hg
      unfold similar
      simp only [hg]
      simp only [bind, Except.bind, hg']
      rw [gather_err hg]
      rfl
    | ok xs =>
      simp only [hg]
      rfl
  | similarItemsRecalc ids rows N fi items =>
    refine (does_map hR hG Result.answer (φ := c.touched .item = none ∧ c.touched .user = none ∧ c.Ready env .item)
      ((does_similarItemsRecalc hR hG hP ids rows N fi items).weaken fun r s h hφ => h hφ.1 hφ.2.1 hφ.2.2)).weaken
      fun r s h hp => ?_
    rw [h hp]
    unfold runQuery
    cases hg : recalculateItem env c.model ids rows with
    | mk r st =>
      have hst : st = (recalculateItem env c.model ids rows).2 := by rw [hg]
      have hsame := recalculateItem_same env c.model ids rows
      have hco : Coherent env (recalculateItem env c.model ids rows).2 :=
        recalculateItem_coherent (coherent_fresh env ⟨c.T .user, c.T .item⟩) ids rows
      cases r with
      | error e =>
        simp only [hg]
        unfold similarRecalc
        simp only [bind, Except.bind, hg]
        rfl
      | ok xs =>
        simp only [hg]
        have hn : (getItemNorms env st).1 = safeNorms env.norm env.eps (c.T .item) := by
          rw [hst, getItemNorms_fst hco, hsame.2]
          rfl
        have hi : (getItemNorms env st).2.item = c.T .item := by
          rw [(getItemNorms_same env st).2, hst, hsame.2]
          rfl
        rw [hn, hi]
        unfold similarRecalc
        simp only [bind, Except.bind, hg]
  | similarUsers ids N fi items =>
    exact (does_map hR hG Result.answer (φ := c.touched .user = none ∧ c.Ready env .user) ((does_similarUsers hR hG hP ids N fi items).weaken
      fun r s h hφ => h hφ.1 hφ.2)).weaken fun r s h hp => h hp
  | recalculateUser ids rows => exact does_map hR hG Result.vectors (does_recalculateUser hR hG ids rows)
  | recalculateItem ids rows => exact does_map hR hG Result.vectors (does_recalculateItem hR hG ids rows)
  | explain userid rows itemid weights N =>
    exact does_map hR hG Result.explanation (does_explain hR hG userid rows itemid weights N)

end

end Implicit
