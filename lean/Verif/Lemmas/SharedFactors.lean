import Verif.Model.SharedFactors
import Verif.Lemmas.Threads
/-!
# What threads that share a factor model leave alone
-/

set_option linter.unusedSectionVars false

namespace Implicit

variable {R : Type} [LinearOrder R] [Field R] {f : Nat}

/-- What is known about a run: the factors at the start, the rows that some thread may update (`none`: the side is not updated at
all) and whether the norms are cached from the start. -/
structure Setting (f : Nat) (R : Type) where
  T : Side → List (Vec f R)
  touched : Side → Option (Nat → Prop)
  warm : Side → Prop

namespace Setting

/-- A factor matrix that differs from the one at the start at most in the rows that may be updated. -/
def Agrees (c : Setting f R) (d : Side) (t : List (Vec f R)) : Prop :=
  match c.touched d with
  | none => t = c.T d
  | some W => (c.T d).length ≤ t.length ∧ ∀ u < (c.T d).length, ¬ W u → t[u]? = (c.T d)[u]?

/-- No thread has to replace a norm by a small value. -/
def Ready (env : Env f R) (c : Setting f R) (d : Side) : Prop := c.warm d ∨ ∀ v ∈ c.T d, env.norm v ≠ 0

end Setting

/-- What holds at every moment. -/
structure Sound (env : Env f R) (c : Setting f R) (s : Shared f R) : Prop where
  tabs : ∀ d, ∀ t ∈ s.tabs d, c.Agrees d t
  cur : ∀ d, s.cur d < (s.tabs d).length
  norms : ∀ d, c.touched d = none → ∀ p, s.norms d = some p → p < (s.arrays d).length
  arrays : ∀ d, c.touched d = none → ∀ a ∈ s.arrays d, a = (c.T d).map env.norm ∨ a = safeNorms env.norm env.eps (c.T d)
  ready : ∀ d, c.touched d = none → c.Ready env d → ∀ a ∈ s.arrays d, a = safeNorms env.norm env.eps (c.T d)
  warm : ∀ d, c.touched d = none → c.warm d → s.norms d ≠ none
  gram : ∀ d, c.touched d = none → ∀ G, s.gram d = some G → G = Implicit.gram (c.T d)

/-- What never goes away. -/
structure Grows (c : Setting f R) (s s' : Shared f R) : Prop where
  tabs : ∀ d, (s.tabs d).length ≤ (s'.tabs d).length
  arrays : ∀ d, (s.arrays d).length ≤ (s'.arrays d).length
  norms : ∀ d, c.touched d = none → s.norms d ≠ none → s'.norms d ≠ none
  gram : ∀ d, c.touched d = none → s.gram d ≠ none → s'.gram d ≠ none

theorem Grows.refl (c : Setting f R) (s : Shared f R) : Grows c s s :=
  ⟨fun _ => le_refl _, fun _ => le_refl _, fun _ _ h => h, fun _ _ h => h⟩

/-- A step that changes no factors. -/
def Quiet (env : Env f R) (c : Setting f R) (s s' : Shared f R) : Prop :=
  Sound env c s' ∧ Grows c s s' ∧ s'.tabs = s.tabs ∧ s'.cur = s.cur

/-- Any step of a thread. -/
def Proper (env : Env f R) (c : Setting f R) (s s' : Shared f R) : Prop := Sound env c s → Sound env c s' ∧ Grows c s s'

/-- A fact that stays true. -/
def Kept (c : Setting f R) (P : Shared f R → Prop) : Prop := ∀ s s', Grows c s s' → P s → P s'

theorem kept_pure (c : Setting f R) (φ : Prop) : Kept c fun _ => φ := fun _ _ _ h => h

theorem kept_and {c : Setting f R} {P Q : Shared f R → Prop} (hP : Kept c P) (hQ : Kept c Q) : Kept c fun s => P s ∧ Q s :=
  fun s s' h hs => ⟨hP s s' h hs.1, hQ s s' h hs.2⟩

theorem kept_tab (c : Setting f R) (d : Side) (p : Nat) : Kept c fun s => p < (s.tabs d).length :=
  fun _ _ h hs => lt_of_lt_of_le hs (h.tabs d)

theorem kept_array (c : Setting f R) (d : Side) (p : Nat) : Kept c fun s => p < (s.arrays d).length :=
  fun _ _ h hs => lt_of_lt_of_le hs (h.arrays d)

theorem kept_norms (c : Setting f R) (d : Side) (h : c.touched d = none) : Kept c fun s => s.norms d ≠ none :=
  fun _ _ hg hs => hg.norms d h hs

theorem kept_gram (c : Setting f R) (d : Side) (h : c.touched d = none) : Kept c fun s => s.gram d ≠ none :=
  fun _ _ hg hs => hg.gram d h hs

/-- Started when `P` holds, the thread works properly and ends with `Q`; it never waits. -/
def Does (env : Env f R) (c : Setting f R) (rely guar : Shared f R → Shared f R → Prop) {α : Type} (P : Shared f R → Prop)
    (p : Prog (Shared f R) α) (Q : α → Shared f R → Prop) : Prop :=
  Safe rely guar (fun _ => False) (fun a s => Sound env c s ∧ Q a s) p (fun s => Sound env c s ∧ P s)

section

variable {env : Env f R} {c : Setting f R} {rely guar : Shared f R → Shared f R → Prop}
  {α β : Type} {P P' : Shared f R → Prop} {Q : α → Shared f R → Prop} {Q' : β → Shared f R → Prop}

theorem stable_of_kept (hR : ∀ s s', rely s s' → Proper env c s s') (hP : Kept c P) :
    Stable rely fun s => Sound env c s ∧ P s := fun s s' hs hr =>
  ⟨(hR s s' hr hs.1).1, hP s s' (hR s s' hr hs.1).2 hs.2⟩

theorem Does.done (hR : ∀ s s', rely s s' → Proper env c s s') (hP : Kept c P) {a : α}
    (h : ∀ s, Sound env c s → P s → Q a s) : Does env c rely guar P (.done a) Q :=
  Safe.done (stable_of_kept hR hP) fun s hs => ⟨hs.1, h s hs.1 hs.2⟩

theorem Does.bind {p : Prog (Shared f R) α} {k : α → Prog (Shared f R) β} (hp : Does env c rely guar P p Q)
    (hk : ∀ a, Does env c rely guar (Q a) (k a) Q') : Does env c rely guar P (p.bind k) Q' :=
  Safe.bind hk hp

theorem Does.weaken {p : Prog (Shared f R) α} {Q'' : α → Shared f R → Prop} (hp : Does env c rely guar P p Q)
    (h : ∀ a s, Q a s → Q'' a s) : Does env c rely guar P p Q'' :=
  Safe.weaken (fun _ _ hs => ⟨hs.1, h _ _ hs.2⟩) hp

theorem Does.pre (hR : ∀ s s', rely s s' → Proper env c s s') {p : Prog (Shared f R) α} (hp : Does env c rely guar P p Q)
    (hP : Kept c P') (h : ∀ s, P' s → P s) : Does env c rely guar P' p Q :=
  Safe.pre (stable_of_kept hR hP) (fun s hs => ⟨hs.1, h s hs.2⟩) hp

/-- A fact that stays true is true at the end. -/
theorem Does.frame (hR : ∀ s s', rely s s' → Proper env c s s') (hP : ∀ s s', guar s s' → Proper env c s s') {F : Shared f R → Prop} (hF : Kept c F)
    {p : Prog (Shared f R) α} {Q'' : α → Shared f R → Prop} (hp : Does env c rely guar (fun _ => True) p Q)
    (h : ∀ a s, Q a s → F s → Q'' a s) : Does env c rely guar F p Q'' := by
  have h' := Safe.frame (stable_of_kept hR hF) (stable_of_kept hP hF) hp
  refine Safe.weaken (fun a s hs => ⟨hs.1.1, h a s hs.1.2 hs.2.2⟩) (Safe.pre (stable_of_kept hR hF) ?_ h')
  exact fun s hs => ⟨⟨hs.1, trivial⟩, hs⟩

/-- A condition that does not depend on the state can be assumed. -/
theorem Does.assume {φ : Prop} {p : Prog (Shared f R) α} (h : φ → Does env c rely guar P p Q) :
    Does env c rely guar (fun s => φ ∧ P s) p Q := by
  by_cases hφ : φ
  · have e : (fun s => φ ∧ P s) = P := by funext s; simp [hφ]
    rw [e]
    exact h hφ
  · exact Safe.of_false (fun s hs => hφ hs.2.1) p

theorem Does.assume' {φ : Prop} {p : Prog (Shared f R) α} (h : φ → Does env c rely guar (fun _ => True) p Q) :
    Does env c rely guar (fun _ => φ) p Q := by
  have := Does.assume h
  simpa using this

theorem Does.andThen (hR : ∀ s s', rely s s' → Proper env c s s') {p : Thread f R α} {k : α → Thread f R β}
    {Q : α → Shared f R → Prop} {Q' : Except Err β → Shared f R → Prop} {E : Err → Prop}
    (hp : Does env c rely guar P p fun r s => match r with | .error e => E e | .ok a => Q a s)
    (he : ∀ e s, E e → Q' (.error e) s) (hk : ∀ a, Does env c rely guar (Q a) (k a) Q') :
    Does env c rely guar P (p.andThen k) Q' := by
  refine Does.bind hp fun r => ?_
  cases r with
  | error e => exact Does.done hR (kept_pure c _) fun s _ h => he e s h
  | ok a => exact hk a

theorem Does.read (hR : ∀ s s', rely s s' → Proper env c s s') (hG : ∀ s s', Sound env c s → Quiet env c s s' → guar s s')
    {g : Shared f R → α} (hP : Kept c P) (hQ : ∀ a, Kept c (Q a)) (h : ∀ s, Sound env c s → P s → Q (g s) s) :
    Does env c rely guar P (.read g) Q :=
  Safe.read (stable_of_kept hR hP) (fun a => stable_of_kept hR (hQ a))
    (fun s hs => hG s s hs.1 ⟨hs.1, Grows.refl c s, rfl, rfl⟩) fun s hs => ⟨hs.1, h s hs.1 hs.2⟩

theorem Does.write (hR : ∀ s s', rely s s' → Proper env c s s') {Q : Unit → Shared f R → Prop} {u : Shared f R → Shared f R}
    (hP : Kept c P) (hQ : Kept c (Q ()))
    (h : ∀ s, Sound env c s → P s → guar s (u s) ∧ Sound env c (u s) ∧ Q () (u s)) :
    Does env c rely guar P (.write u) Q :=
  Safe.write (stable_of_kept hR hP) (stable_of_kept hR hQ) fun s hs => h s hs.1 hs.2

theorem Does.atomic (hR : ∀ s s', rely s s' → Proper env c s s') {g : Shared f R → Shared f R × α}
    (hP : Kept c P) (hQ : ∀ a, Kept c (Q a))
    (h : ∀ s, Sound env c s → P s → guar s (g s).1 ∧ Sound env c (g s).1 ∧ Q (g s).2 (g s).1) :
    Does env c rely guar P (.atomic g) Q :=
  Safe.atomic (stable_of_kept hR hP) (fun a => stable_of_kept hR (hQ a)) fun s hs => h s hs.1 hs.2

end

/-! ## Norms -/

theorem patch_raw (eps : R) (norm : Vec f R → R) (t : List (Vec f R)) :
    patchNorms eps ((t.map norm).map fun x => decide (x = 0)) (t.map norm) = safeNorms norm eps t := by
  unfold patchNorms safeNorms
  induction t with
  | nil => rfl
  | cons v t ih => simp only [List.map_cons, List.zipWith_cons_cons, ih, decide_eq_true_eq]

theorem patch_kinds (eps : R) (norm : Vec f R → R) (t : List (Vec f R)) (a m : List R)
    (ha : a = t.map norm ∨ a = safeNorms norm eps t) (hm : m = t.map norm ∨ m = safeNorms norm eps t) :
    (patchNorms eps (m.map fun x => decide (x = 0)) a = t.map norm ∧ a = t.map norm) ∨
      patchNorms eps (m.map fun x => decide (x = 0)) a = safeNorms norm eps t := by
  rcases ha with rfl | rfl <;> rcases hm with rfl | rfl
  · exact .inr (patch_raw eps norm t)
  · refine .inl ⟨?_, rfl⟩
    unfold patchNorms safeNorms
    induction t with
    | nil => rfl
    | cons v t ih =>
      simp only [List.map_cons, List.zipWith_cons_cons, ih, decide_eq_true_eq]
      congr 1
      split_ifs with h1 h2 h2 <;> simp_all
  · right
    unfold patchNorms safeNorms
    induction t with
    | nil => rfl
    | cons v t ih =>
      simp only [List.map_cons, List.zipWith_cons_cons, ih, decide_eq_true_eq]
      congr 1
      split_ifs <;> rfl
  · right
    unfold patchNorms safeNorms
    induction t with
    | nil => rfl
    | cons v t ih =>
      simp only [List.map_cons, List.zipWith_cons_cons, ih, decide_eq_true_eq]
      congr 1
      split_ifs <;> simp_all

theorem safe_of_nonzero (eps : R) (norm : Vec f R → R) (t : List (Vec f R)) (h : ∀ v ∈ t, norm v ≠ 0) :
    t.map norm = safeNorms norm eps t := by
  unfold safeNorms
  apply List.map_congr_left
  intro v hv
  rw [if_neg (h v hv)]

theorem Shared.array_mem {s : Shared f R} {d : Side} {p : Nat} (h : p < (s.arrays d).length) : s.array d p ∈ s.arrays d := by
  unfold Shared.array
  rw [List.getD_eq_getElem?_getD, List.getElem?_eq_getElem h]
  exact List.getElem_mem h

theorem Shared.tab_mem {s : Shared f R} {d : Side} {p : Nat} (h : p < (s.tabs d).length) : s.tab d p ∈ s.tabs d := by
  unfold Shared.tab
  rw [List.getD_eq_getElem?_getD, List.getElem?_eq_getElem h]
  exact List.getElem_mem h

theorem safeNorms_length (eps : R) (norm : Vec f R → R) (t : List (Vec f R)) : (safeNorms norm eps t).length = t.length := by
  simp [safeNorms]

/-! ## Steps that change no factors -/

theorem quiet_publish {env : Env f R} {c : Setting f R} {s : Shared f R} (hs : Sound env c s) (d : Side) (a : List R)
    (ha : c.touched d = none → ¬ c.warm d ∧ a = (c.T d).map env.norm) : Quiet env c s (s.publish d a) := by
  refine ⟨⟨hs.tabs, hs.cur, ?_, ?_, ?_, ?_, hs.gram⟩, ⟨fun _ => le_refl _, ?_, ?_, fun _ _ h => h⟩, rfl, rfl⟩
  · intro d' ht p hp
    by_cases h : d' = d
    · subst h
      simp only [Shared.publish, Function.update_self, Option.some.injEq] at hp ⊢
      rw [← hp]
      simp
    · simp only [Shared.publish, Function.update_of_ne h] at hp ⊢
      exact hs.norms d' ht p hp
  · intro d' ht x hx
    by_cases h : d' = d
    · subst h
      simp only [Shared.publish, Function.update_self, List.mem_append, List.mem_singleton] at hx
      rcases hx with hx | rfl
      · exact hs.arrays d' ht x hx
      · exact .inl (ha ht).2
    · simp only [Shared.publish, Function.update_of_ne h] at hx
      exact hs.arrays d' ht x hx
  · intro d' ht hr x hx
    by_cases h : d' = d
    · subst h
      simp only [Shared.publish, Function.update_self, List.mem_append, List.mem_singleton] at hx
      rcases hx with hx | rfl
      · exact hs.ready d' ht hr x hx
      · rcases hr with hw | hz
        · exact absurd hw (ha ht).1
        · rw [(ha ht).2, safe_of_nonzero _ _ _ hz]
    · simp only [Shared.publish, Function.update_of_ne h] at hx
      exact hs.ready d' ht hr x hx
  · intro d' ht hw
    by_cases h : d' = d
    · subst h
      simp [Shared.publish]
    · simp only [Shared.publish, Function.update_of_ne h]
      exact hs.warm d' ht hw
  · intro d'
    by_cases h : d' = d
    · subst h
      simp [Shared.publish]
    · simp [Shared.publish, Function.update_of_ne h]
  · intro d' ht hn
    by_cases h : d' = d
    · subst h
      simp [Shared.publish]
    · simp only [Shared.publish, Function.update_of_ne h]
      exact hn

theorem quiet_setArray {env : Env f R} {c : Setting f R} {s : Shared f R} (hs : Sound env c s) (d : Side) (p : Nat) (a : List R)
    (ha : c.touched d = none → (a = (c.T d).map env.norm ∧ s.array d p = a) ∨ a = safeNorms env.norm env.eps (c.T d)) :
    Quiet env c s (s.setArray d p a) := by
  have hmem : ∀ x ∈ (s.arrays d).set p a, x ∈ s.arrays d ∨ c.touched d = none → x ∈ s.arrays d ∨
      x = safeNorms env.norm env.eps (c.T d) := by
    intro x hx h
    rcases h with h | ht
    · exact .inl h
    · by_cases hp : p < (s.arrays d).length
      · rcases List.mem_or_eq_of_mem_set hx with h | rfl
        · exact .inl h
        · rcases ha ht with ⟨-, e⟩ | e
          · exact .inl (e ▸ Shared.array_mem hp)
          · exact .inr e
      · rw [List.set_eq_of_length_le (by omega)] at hx
        exact .inl hx
  refine ⟨⟨hs.tabs, hs.cur, ?_, ?_, ?_, hs.warm, hs.gram⟩, ⟨fun _ => le_refl _, ?_, fun _ _ h => h, fun _ _ h => h⟩, rfl, rfl⟩
  · intro d' ht q hq
    by_cases h : d' = d
    · subst h
      simpa [Shared.setArray] using hs.norms d' ht q hq
    · simpa [Shared.setArray, Function.update_of_ne h] using hs.norms d' ht q hq
  · intro d' ht x hx
    by_cases h : d' = d
    · subst h
      simp only [Shared.setArray, Function.update_self] at hx
      rcases hmem x hx (.inr ht) with h | h
      · exact hs.arrays d' ht x h
      · exact .inr h
    · simp only [Shared.setArray, Function.update_of_ne h] at hx
      exact hs.arrays d' ht x hx
  · intro d' ht hr x hx
    by_cases h : d' = d
    · subst h
      simp only [Shared.setArray, Function.update_self] at hx
      rcases hmem x hx (.inr ht) with h | h
      · exact hs.ready d' ht hr x h
      · exact h
    · simp only [Shared.setArray, Function.update_of_ne h] at hx
      exact hs.ready d' ht hr x hx
  · intro d'
    by_cases h : d' = d
    · subst h
      simp [Shared.setArray]
    · simp [Shared.setArray, Function.update_of_ne h]

theorem quiet_gram {env : Env f R} {c : Setting f R} {s : Shared f R} (hs : Sound env c s) (d : Side) (G : Mat f R)
    (hG : c.touched d = none → G = Implicit.gram (c.T d)) :
    Quiet env c s { s with gram := Function.update s.gram d (some G) } := by
  refine ⟨⟨hs.tabs, hs.cur, hs.norms, hs.arrays, hs.ready, hs.warm, ?_⟩,
    ⟨fun _ => le_refl _, fun _ => le_refl _, fun _ _ h => h, ?_⟩, rfl, rfl⟩
  · intro d' ht G' h'
    by_cases h : d' = d
    · subst h
      simp only [Function.update_self, Option.some.injEq] at h'
      rw [← h']
      exact hG ht
    · simp only [Function.update_of_ne h] at h'
      exact hs.gram d' ht G' h'
  · intro d' ht hn
    by_cases h : d' = d
    · subst h
      simp
    · simp only [Function.update_of_ne h]
      exact hn

end Implicit
