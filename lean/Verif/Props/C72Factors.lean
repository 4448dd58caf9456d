import Verif.Lemmas.SharedUpdates
import Verif.Props.C10
/-!
# C72 — threads that share a factor model on the CPU
-/

set_option linter.unusedSectionVars false

namespace Implicit

variable {R : Type} [LinearOrder R] [Field R] {f : Nat}

/-- A call of a method of the model. -/
inductive ModelCall (f : Nat) (R : Type) where
  | query (q : Query f R)
  | updateUsers (ids : List Nat) (userItems : SpRows R)
  | updateItems (ids : List Nat) (itemUsers : SpRows R)

/-- The steps of a call; an update returns nothing. -/
def ModelCall.prog (env : Env f R) : ModelCall f R → Thread f R (Option (Result f R))
  | .query q => (queryProg env q).andThen fun r => .done (.ok (some r))
  | .updateUsers ids rows => (partialFitUsersProg env ids rows).andThen fun _ => .done (.ok none)
  | .updateItems ids rows => (partialFitItemsProg env ids rows).andThen fun _ => .done (.ok none)

/-- The call as an operation of the sequential model. -/
def ModelCall.op : ModelCall f R → Op f R
  | .query q => .query q
  | .updateUsers ids rows => .partialFitUsers ids rows
  | .updateItems ids rows => .partialFitItems ids rows

/-- A process whose threads make the given calls on one model. -/
def modelProcess (env : Env f R) (st : MFState f R) (threads : List (List (ModelCall f R))) :
    Proc (Shared f R) (List (Except Err (Option (Result f R)))) :=
  ⟨Shared.start st, threads.map fun calls => Prog.sequence (calls.map (ModelCall.prog env))⟩

/-- The call updates rows of side `d`, among them row `i`. -/
def ModelCall.Updates (d : Side) (i : Nat) : ModelCall f R → Prop
  | .query _ => False
  | .updateUsers ids _ => d = .user ∧ i ∈ ids
  | .updateItems ids _ => d = .item ∧ i ∈ ids

/-- Some thread calls the update method of side `d`. -/
def Updated (threads : List (List (ModelCall f R))) (d : Side) : Prop :=
  ∃ calls ∈ threads, ∃ c ∈ calls, match c with
    | .query _ => False
    | .updateUsers _ _ => d = .user
    | .updateItems _ _ => d = .item

/-- `similar_items` and `similar_users` do not meet a norm that has to be replaced: the norms are cached already, or none is 0. -/
def NormsReady (env : Env f R) (st : MFState f R) : Side → Prop
  | .user => st.userNorms ≠ none ∨ ∀ v ∈ st.user, env.norm v ≠ 0
  | .item => st.itemNorms ≠ none ∨ ∀ v ∈ st.item, env.norm v ≠ 0

/-- What the query reads is not updated by any thread: `recommend` reads the item factors and the factors of its users (with
`recalculate_user=True` no user factors), `recalculate_user` and `explain` read the item factors, and so on. -/
def Unaffected (env : Env f R) (st : MFState f R) (threads : List (List (ModelCall f R))) : Query f R → Prop
  | .recommend ids _ _ _ _ recalculate _ => ¬ Updated threads .item ∧ (recalculate = true ∨ ¬ Updated threads .user ∨
      ∀ u ∈ ids.toList, u < st.user.length ∧ ∀ calls ∈ threads, ∀ c ∈ calls, ¬ c.Updates .user u)
  | .similarItems _ _ _ _ => ¬ Updated threads .item ∧ NormsReady env st .item
  | .similarItemsRecalc _ _ _ _ _ => ¬ Updated threads .item ∧ ¬ Updated threads .user ∧ NormsReady env st .item
  | .similarUsers _ _ _ _ => ¬ Updated threads .user ∧ NormsReady env st .user
  | .recalculateUser _ _ => ¬ Updated threads .item
  | .recalculateItem _ _ => ¬ Updated threads .user
  | .explain _ _ _ _ _ => ¬ Updated threads .item

open Classical in
/-- The rows that the threads may update. -/
noncomputable def touchedBy (threads : List (List (ModelCall f R))) (d : Side) : Option (Nat → Prop) :=
  if Updated threads d then some fun i => ∃ calls ∈ threads, ∃ c ∈ calls, c.Updates d i else none

theorem unaffected_protected {env : Env f R} {st : MFState f R} {threads : List (List (ModelCall f R))} {q : Query f R}
    (h : Unaffected env st threads q) : (Setting.of st (touchedBy threads)).Protected env q := by
  have hnone : ∀ d, ¬ Updated threads d → (Setting.of st (touchedBy threads)).touched d = none := fun d hd => by
    show touchedBy threads d = none
    unfold touchedBy
    rw [if_neg hd]
  cases q with
  | recommend ids userItems N fl fi rc items =>
    obtain ⟨hi, hu⟩ := h
    refine ⟨hnone _ hi, fun hrc W hW i hmem => ?_⟩
    have hW' : touchedBy threads .user = some W := hW
    rcases hu with e | hu | hu
    · rw [hrc] at e; cases e
    · rw [hnone _ hu] at hW; cases hW
    · refine ⟨(hu i hmem).1, ?_⟩
      unfold touchedBy at hW'
      split_ifs at hW' with h
      cases hW'
      rintro ⟨calls, hc, c, hcc, hup⟩
      exact (hu i hmem).2 calls hc c hcc hup
  | similarItems ids N fi items => exact ⟨hnone _ h.1, h.2⟩
  | similarItemsRecalc ids rows N fi items => exact ⟨hnone _ h.1, hnone _ h.2.1, h.2.2⟩
  | similarUsers ids N fi items => exact ⟨hnone _ h.1, h.2⟩
  | recalculateUser ids rows => exact hnone _ h
  | recalculateItem ids rows => exact hnone _ h
  | explain userid rows itemid weights N => exact hnone _ h

/-- What is promised about the result of a call. -/
def CallResult (env : Env f R) (st : MFState f R) (threads : List (List (ModelCall f R))) (c : ModelCall f R)
    (r : Except Err (Option (Result f R))) : Prop :=
  match c with
  | .query q => Unaffected env st threads q → r = (runQuery env st q).1.map some
  | _ => True

theorem does_call {env : Env f R} {st : MFState f R} (hst : Coherent env st) {threads : List (List (ModelCall f R))}
    {calls : List (ModelCall f R)} (hcalls : calls ∈ threads) {c : ModelCall f R} (hc : c ∈ calls) :
    Does env (Setting.of st (touchedBy threads)) (Proper env (Setting.of st (touchedBy threads)))
      (Proper env (Setting.of st (touchedBy threads))) (fun _ => True) (c.prog env)
      fun r _ => CallResult env st threads c r := by
  have hR : ∀ s s', Proper env (Setting.of st (touchedBy threads)) s s' → Proper env (Setting.of st (touchedBy threads)) s s' :=
    fun _ _ h => h
  have hU : ∀ s s', Sound env (Setting.of st (touchedBy threads)) s → Sound env (Setting.of st (touchedBy threads)) s' →
      Grows (Setting.of st (touchedBy threads)) s s' → Proper env (Setting.of st (touchedBy threads)) s s' :=
    fun _ _ _ h h' _ => ⟨h, h'⟩
  have hG : ∀ s s', Sound env (Setting.of st (touchedBy threads)) s → Quiet env (Setting.of st (touchedBy threads)) s s' →
      Proper env (Setting.of st (touchedBy threads)) s s' := fun _ _ _ h _ => ⟨h.1, h.2.1⟩
  have htouch : ∀ d, (match c with
      | .query _ => False
      | .updateUsers _ _ => d = .user
      | .updateItems _ _ => d = .item) →
      (Setting.of st (touchedBy threads)).touched d = some fun i => ∃ calls ∈ threads, ∃ c ∈ calls, c.Updates d i := by
    intro d hd
    show touchedBy threads d = _
    unfold touchedBy
    rw [if_pos ⟨calls, hcalls, c, hc, hd⟩]
  cases c with
  | query q =>
    refine (does_map hR hG some (does_query hR hG hR q)).weaken fun r s h hun => ?_
    rw [h (unaffected_protected hun)]
    have hm : (Setting.of st (touchedBy threads)).model = st.fresh := rfl
    rw [hm, ← runQuery_fresh hst q]
  | updateUsers ids rows =>
    exact does_andThen_true hR hU (does_partialFitUsers hR hU ids rows (htouch .user rfl)
      fun i hi => ⟨calls, hcalls, _, hc, rfl, hi⟩) fun _ => Does.done hR (kept_pure _ _) fun _ _ _ => trivial
  | updateItems ids rows =>
    exact does_andThen_true hR hU (does_partialFitItems hR hU ids rows (htouch .item rfl)
      fun i hi => ⟨calls, hcalls, _, hc, rfl, hi⟩) fun _ => Does.done hR (kept_pure _ _) fun _ _ _ => trivial

theorem proper_others (env : Env f R) (c : Setting f R) (m : Nat) (i j : Fin m) (s s' : Shared f R) (_ : i ≠ j)
    (h : (fun _ : Fin m => Proper env c) j s s') : (fun _ : Fin m => Proper env c) i s s' := h

theorem modelProcess_safe (env : Env f R) (st : MFState f R) (hst : Coherent env st) (threads : List (List (ModelCall f R))) :
    AllSafe (n := threads.length) (fun _ => Proper env (Setting.of st (touchedBy threads)))
      (fun _ => Proper env (Setting.of st (touchedBy threads))) (fun _ _ => False)
      (fun i rs s => List.Forall₂ (CallResult env st threads) (threads.getD i []) rs ∧
        Sound env (Setting.of st (touchedBy threads)) s)
      (modelProcess env st threads) := by
  refine ⟨by simp [modelProcess], fun i p hp => ⟨Sound env (Setting.of st (touchedBy threads)), sound_start hst _, ?_⟩⟩
  have hi := List.getElem?_eq_getElem i.isLt
  have hp' : p = Prog.sequence ((threads[i.val]).map (ModelCall.prog env)) := by
    simpa [modelProcess, hi] using hp.symm
  have hg : threads.getD i [] = threads[i.val] := by rw [List.getD_eq_getElem?_getD, hi]; rfl
  rw [hp']
  simp only [hg]
  have hK : Stable (Proper env (Setting.of st (touchedBy threads))) (Sound env (Setting.of st (touchedBy threads))) :=
    fun s s' hs hr => (hr hs).1
  have h := Safe.sequence (guar := Proper env (Setting.of st (touchedBy threads))) (blocked := fun _ => False) hK
    ((threads[i.val]).map fun c => (c.prog env, CallResult env st threads c)) (by
    intro p hp
    obtain ⟨c, hc, rfl⟩ := List.mem_map.mp hp
    have := does_call hst (List.getElem_mem i.isLt) hc
    refine Safe.weaken (fun a s hs => ⟨hs.2, hs.1⟩) (Safe.pre hK ?_ this)
    exact fun s hs => ⟨hs, trivial⟩)
  rw [List.map_map] at h
  refine h.weaken fun rs s hs => ⟨?_, hs.2⟩
  have := hs.1
  rw [List.forall₂_map_left_iff] at this
  exact this

/-- **C72** (factor models).  Any number of threads make any calls - queries and updates - on one model, under any schedule.  A
thread that is finished has got, from each query that reads nothing any thread updates, the answer it gives alone on the model as it
was at the start. -/
theorem C72_answers (env : Env f R) (st : MFState f R) (hst : Coherent env st) (threads : List (List (ModelCall f R)))
    (schedule : List Nat) (i : Nat) (calls : List (ModelCall f R)) (hi : threads[i]? = some calls)
    (results : List (Except Err (Option (Result f R))))
    (hr : ((modelProcess env st threads).run schedule).result i = some results) :
    results.length = calls.length ∧ ∀ (k : Nat) (q : Query f R), calls[k]? = some (.query q) →
      Unaffected env st threads q → results[k]? = some ((runQuery env st q).1.map some) := by
  have hlt := (List.getElem?_eq_some_iff.mp hi).1
  have h := (modelProcess_safe env st hst threads).run (proper_others env _ _) schedule
  have h2 := (h.result ⟨i, hlt⟩ results hr).1
  have hg : threads.getD i [] = calls := by rw [List.getD_eq_getElem?_getD, hi]; rfl
  simp only [hg] at h2
  refine ⟨h2.length_eq.symm, fun k q hk hun => ?_⟩
  obtain ⟨hk1, hk2⟩ := List.getElem?_eq_some_iff.mp hk
  have hk3 : k < results.length := h2.length_eq ▸ hk1
  have := h2.get hk1 hk3
  simp only [List.get_eq_getElem, hk2] at this
  rw [List.getElem?_eq_getElem hk3, this hun]

/-- **C72** (factor models, queries only).  When no thread updates the model, every answer of `recommend`, `recalculate_user`,
`recalculate_item` and `explain` is the one a single thread gets; and those of `similar_items` and `similar_users` if the norms are
cached or no factor is 0. -/
theorem C72_queries (env : Env f R) (st : MFState f R) (hst : Coherent env st) (threads : List (List (Query f R)))
    (schedule : List Nat) (i : Nat) (qs : List (Query f R)) (hi : threads[i]? = some qs)
    (hn : NormsReady env st .user) (hn' : NormsReady env st .item)
    (results : List (Except Err (Option (Result f R))))
    (hr : ((modelProcess env st (threads.map fun qs => qs.map .query)).run schedule).result i = some results) :
    results = qs.map fun q => (runQuery env st q).1.map some := by
  have hno : ∀ d, ¬ Updated (threads.map fun qs => qs.map (ModelCall.query (f := f) (R := R))) d := by
    rintro d ⟨calls, hc, c, hcc, h⟩
    obtain ⟨qs', -, rfl⟩ := List.mem_map.mp hc
    obtain ⟨q, -, rfl⟩ := List.mem_map.mp hcc
    exact h
  have hun : ∀ q, Unaffected env st (threads.map fun qs => qs.map .query) q := by
    intro q
    cases q with
    | recommend ids userItems N fl fi rc items => exact ⟨hno _, .inr (.inl (hno _))⟩
    | similarItems ids N fi items => exact ⟨hno _, hn'⟩
    | similarItemsRecalc ids rows N fi items => exact ⟨hno _, hno _, hn'⟩
    | similarUsers ids N fi items => exact ⟨hno _, hn⟩
    | recalculateUser ids rows => exact hno _
    | recalculateItem ids rows => exact hno _
    | explain userid rows itemid weights N => exact hno _
  obtain ⟨hl, h⟩ := C72_answers env st hst _ schedule i (qs.map .query) (by rw [List.getElem?_map, hi]; rfl) results hr
  apply List.ext_getElem?
  intro k
  by_cases hk : k < qs.length
  · have hq := List.getElem?_eq_getElem hk
    rw [h k qs[k] (by rw [List.getElem?_map, hq]; rfl) (hun _), List.getElem?_map, hq]
    rfl
  · rw [List.getElem?_eq_none (by simp at hl; omega), List.getElem?_eq_none (by simp; omega)]

/-- **C72** (factor models, no deadlock).  No thread ever waits, so every fair schedule finishes all calls. -/
theorem C72_finish (env : Env f R) (st : MFState f R) (hst : Coherent env st) (threads : List (List (ModelCall f R)))
    (schedule : Nat → Nat) (hfair : ∀ i < threads.length, ∀ m, ∃ k, m ≤ k ∧ schedule k = i) :
    ∃ m, ((modelProcess env st threads).run ((List.range m).map schedule)).finished = true := by
  refine Proc.fair_finishes (fun c => AllSafe (n := threads.length) (fun _ => Proper env (Setting.of st (touchedBy threads)))
      (fun _ => Proper env (Setting.of st (touchedBy threads))) (fun _ _ => False)
      (fun i rs s => List.Forall₂ (CallResult env st threads) (threads.getD i []) rs ∧
        Sound env (Setting.of st (touchedBy threads)) s) c)
    (fun c i h => (h.step (proper_others env _ _) i).1) ?_ _ (modelProcess_safe env st hst threads) threads.length
    (by simp [modelProcess]) schedule hfair
  rintro c ⟨hn, h⟩ hf
  obtain ⟨p, hp, hv⟩ : ∃ p ∈ c.threads, p.value?.isSome = false := by
    simpa [Proc.finished] using hf
  obtain ⟨i, hi⟩ := List.getElem?_of_mem hp
  have hil : i < threads.length := hn ▸ (List.getElem?_eq_some_iff.mp hi).1
  refine ⟨i, p, hi, ?_⟩
  cases p with
  | done a => simp [Prog.value?] at hv
  | step ready act next =>
    obtain ⟨K, hK, hs⟩ := h ⟨i, hil⟩ _ hi
    cases hr : ready c.state with
    | true => exact hr
    | false => exact (hs.2.1 _ hK hr).elim

end Implicit
