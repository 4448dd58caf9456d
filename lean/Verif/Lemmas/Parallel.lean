import Verif.Model.Parallel
import Mathlib.Data.List.Basic
import Mathlib.Data.Set.Disjoint

namespace Implicit

variable {I Sc Addr V Th T : Type}

/-- The instruction writes only in `D` and reads only from `D` (and constants). -/
structure LocalTo (act : Act I Sc Addr V) (D : Set Addr) (i : I) : Prop where
  frame : ∀ s m a, a ∉ D → (act i s m).2 a = m a
  reads : ∀ s m m', (∀ a ∈ D, m a = m' a) →
    (act i s m).1 = (act i s m').1 ∧ ∀ a ∈ D, (act i s m).2 a = (act i s m').2 a

theorem LocalTo.mono {act : Act I Sc Addr V} {D E : Set Addr} {i : I} (h : LocalTo act D i)
    (hDE : D ⊆ E) : LocalTo act E i := by
  refine ⟨fun s m a ha => h.frame s m a (fun hd => ha (hDE hd)), fun s m m' hm => ?_⟩
  obtain ⟨h1, h2⟩ := h.reads s m m' (fun a ha => hm a (hDE ha))
  refine ⟨h1, fun a ha => ?_⟩
  by_cases had : a ∈ D
  · exact h2 a had
  · rw [h.frame s m a had, h.frame s m' a had, hm a ha]

theorem run_frame {act : Act I Sc Addr V} {D : Set Addr} (is : List I)
    (h : ∀ i ∈ is, LocalTo act D i) (s : Sc) (m : Addr → V) (a : Addr) (ha : a ∉ D) :
    (runInstrs act is s m).2 a = m a := by
  induction is generalizing s m with
  | nil => rfl
  | cons i is ih =>
    unfold runInstrs
    rw [ih (fun j hj => h j (by simp [hj])), (h i (by simp)).frame s m a ha]

theorem run_reads {act : Act I Sc Addr V} {D : Set Addr} (is : List I)
    (h : ∀ i ∈ is, LocalTo act D i) (s : Sc) (m m' : Addr → V) (hm : ∀ a ∈ D, m a = m' a) :
    (runInstrs act is s m).1 = (runInstrs act is s m').1 ∧
      ∀ a ∈ D, (runInstrs act is s m).2 a = (runInstrs act is s m').2 a := by
  induction is generalizing s m m' with
  | nil => exact ⟨rfl, hm⟩
  | cons i is ih =>
    unfold runInstrs
    obtain ⟨h1, h2⟩ := (h i (by simp)).reads s m m' hm
    rw [h1]
    exact ih (fun j hj => h j (by simp [hj])) _ _ _ h2

theorem run_append (act : Act I Sc Addr V) (is js : List I) (s : Sc) (m : Addr → V) :
    runInstrs act (is ++ js) s m =
      runInstrs act js (runInstrs act is s m).1 (runInstrs act is s m).2 := by
  induction is generalizing s m with
  | nil => rfl
  | cons i is ih => exact ih _ _

variable [DecidableEq Th]

theorem streamOf_cons (t : Th) (p : Th × I) (w : List (Th × I)) :
    streamOf t (p :: w) = if p.1 = t then p.2 :: streamOf t w else streamOf t w := by
  unfold streamOf
  rw [List.filter_cons]
  by_cases h : p.1 = t <;> simp [h]

/-- Non-interference: with disjoint footprints, what a thread sees of an interleaved execution is its
own stream run alone. -/
theorem exec_project {act : Act I Sc Addr V} {D : Th → Set Addr}
    (hdis : ∀ t t', t ≠ t' → Disjoint (D t) (D t')) (w : List (Th × I))
    (hloc : ∀ p ∈ w, LocalTo act (D p.1) p.2) (σ : Th → Sc) (m : Addr → V) (t : Th) :
    (execInterleaved act w σ m).1 t = (runInstrs act (streamOf t w) (σ t) m).1 ∧
      ∀ a ∈ D t, (execInterleaved act w σ m).2 a = (runInstrs act (streamOf t w) (σ t) m).2 a := by
  induction w generalizing σ m with
  | nil => exact ⟨rfl, fun a _ => rfl⟩
  | cons p w ih =>
    obtain ⟨t0, i⟩ := p
    have hl : LocalTo act (D t0) i := hloc (t0, i) (by simp)
    have ih' := ih (fun q hq => hloc q (by simp [hq])) (Function.update σ t0 (act i (σ t0) m).1)
      (act i (σ t0) m).2
    unfold execInterleaved
    rw [streamOf_cons]
    by_cases h : t0 = t
    · subst h
      simp only [if_true]
      rw [Function.update_self] at ih'
      exact ih'
    · simp only [h, if_false]
      rw [Function.update_of_ne (fun e => h e.symm)] at ih'
      have hagree : ∀ a ∈ D t, (act i (σ t0) m).2 a = m a := fun a ha =>
        hl.frame _ _ _ (fun h0 => (Set.disjoint_left.mp (hdis t0 t h)) h0 ha)
      have hlw : ∀ j ∈ streamOf t w, LocalTo act (D t) j := by
        intro j hj
        unfold streamOf at hj
        obtain ⟨q, hq, rfl⟩ := List.mem_map.mp hj
        obtain ⟨hq1, hq2⟩ := List.mem_filter.mp hq
        have : q.1 = t := by simpa using hq2
        rw [← this]
        exact hloc q (by simp [hq1])
      obtain ⟨r1, r2⟩ := run_reads (streamOf t w) hlw (σ t) _ _ hagree
      exact ⟨ih'.1.trans r1, fun a ha => (ih'.2 a ha).trans (r2 a ha)⟩

/-- Addresses outside all footprints are untouched. -/
theorem exec_frame {act : Act I Sc Addr V} {D : Th → Set Addr} (w : List (Th × I))
    (hloc : ∀ p ∈ w, LocalTo act (D p.1) p.2) (σ : Th → Sc) (m : Addr → V) (a : Addr)
    (ha : ∀ t, a ∉ D t) : (execInterleaved act w σ m).2 a = m a := by
  induction w generalizing σ m with
  | nil => rfl
  | cons p w ih =>
    unfold execInterleaved
    rw [ih (fun q hq => hloc q (by simp [hq])), (hloc p (by simp)).frame _ _ _ (ha p.1)]

/-- What a task must satisfy: from clean scratch memory it leaves clean scratch memory and turns the
contents of its own addresses into `F t m`. -/
structure TaskSpec (act : Act I Sc Addr V) (prog : T → List I) (own : T → Set Addr)
    (clean : Sc → Prop) (F : T → (Addr → V) → Addr → V) : Prop where
  disjoint : ∀ t t', t ≠ t' → Disjoint (own t) (own t')
  localTo : ∀ t, ∀ i ∈ prog t, LocalTo act (own t) i
  effect : ∀ t s m, clean s → clean (runInstrs act (prog t) s m).1 ∧
    ∀ a ∈ own t, (runInstrs act (prog t) s m).2 a = F t m a
  depends : ∀ t m m', (∀ a ∈ own t, m a = m' a) → ∀ a ∈ own t, F t m a = F t m' a

omit [DecidableEq Th] in
/-- A thread working through its queue. -/
theorem run_queue {act : Act I Sc Addr V} {prog : T → List I} {own : T → Set Addr}
    {clean : Sc → Prop} {F : T → (Addr → V) → Addr → V} (h : TaskSpec act prog own clean F)
    (q : List T) (hq : q.Nodup) (s : Sc) (m : Addr → V) (hs : clean s) :
    ∀ t ∈ q, ∀ a ∈ own t, (runInstrs act (q.flatMap prog) s m).2 a = F t m a := by
  induction q generalizing s m with
  | nil => simp
  | cons t0 q ih =>
    obtain ⟨hc, he⟩ := h.effect t0 s m hs
    rw [List.nodup_cons] at hq
    intro t ht a ha
    rw [List.flatMap_cons, run_append]
    rcases List.mem_cons.mp ht with rfl | ht'
    · rw [run_frame (D := {b | b ∉ own t}) _ ?_ _ _ a (by simpa using ha)]
      · exact he a ha
      · intro i hi
        obtain ⟨t', ht', hi'⟩ := List.mem_flatMap.mp hi
        refine (h.localTo t' i hi').mono ?_
        intro b hb hb'
        have hne : t' ≠ t := fun e => hq.1 (e ▸ ht')
        exact (Set.disjoint_left.mp (h.disjoint t' t hne)) hb hb'
    · rw [ih hq.2 _ _ hc t ht' a ha]
      refine h.depends t _ _ ?_ a ha
      intro b hb
      have hne : t0 ≠ t := fun e => hq.1 (e ▸ ht')
      refine run_frame _ (h.localTo t0) s m b ?_
      exact fun hb' => (Set.disjoint_left.mp (h.disjoint t0 t hne)) hb' hb

/-- **Parallel loops are deterministic**: whatever the number of threads, the assignment of tasks to
threads and the interleaving of instructions, every task's addresses end up with the task's own
result computed from the initial memory, and nothing else changes. -/
theorem parallel_for {act : Act I Sc Addr V} {prog : T → List I} {own : T → Set Addr}
    {clean : Sc → Prop} {F : T → (Addr → V) → Addr → V} (h : TaskSpec act prog own clean F)
    (queue : Th → List T) (hq : ∀ th, (queue th).Nodup)
    (hqq : ∀ th th', th ≠ th' → ∀ t ∈ queue th, t ∉ queue th')
    (w : List (Th × I)) (hw : IsSchedule prog queue w) (σ : Th → Sc) (hσ : ∀ th, clean (σ th))
    (m : Addr → V) :
    (∀ th, ∀ t ∈ queue th, ∀ a ∈ own t, (execInterleaved act w σ m).2 a = F t m a) ∧
      ∀ a, (∀ th, ∀ t ∈ queue th, a ∉ own t) → (execInterleaved act w σ m).2 a = m a := by
  set D : Th → Set Addr := fun th => {a | ∃ t ∈ queue th, a ∈ own t} with hD
  have hdis : ∀ th th', th ≠ th' → Disjoint (D th) (D th') := by
    intro th th' hne
    rw [Set.disjoint_left]
    rintro a ⟨t, ht, ha⟩ ⟨t', ht', ha'⟩
    have hne' : t ≠ t' := fun e => hqq th th' hne t ht (e ▸ ht')
    exact (Set.disjoint_left.mp (h.disjoint t t' hne')) ha ha'
  have hloc : ∀ p ∈ w, LocalTo act (D p.1) p.2 := by
    intro p hp
    have : p.2 ∈ streamOf p.1 w := by
      unfold streamOf
      exact List.mem_map.mpr ⟨p, List.mem_filter.mpr ⟨hp, by simp⟩, rfl⟩
    rw [hw p.1] at this
    obtain ⟨t, ht, hi⟩ := List.mem_flatMap.mp this
    exact (h.localTo t p.2 hi).mono (fun a ha => ⟨t, ht, ha⟩)
  constructor
  · intro th t ht a ha
    have := (exec_project hdis w hloc σ m th).2 a ⟨t, ht, ha⟩
    rw [this, hw th]
    exact run_queue h (queue th) (hq th) (σ th) m (hσ th) t ht a ha
  · intro a ha
    refine exec_frame w hloc σ m a ?_
    rintro th ⟨t, ht, hat⟩
    exact ha th t ht hat

/-- An interleaving contains exactly the instructions of the threads' streams. -/
theorem perm_streams (ths : List Th) (hnd : ths.Nodup) (w : List (Th × I))
    (hw : ∀ p ∈ w, p.1 ∈ ths) : (w.map Prod.snd).Perm (ths.flatMap fun t => streamOf t w) := by
  induction ths generalizing w with
  | nil =>
    have : w = [] := by
      rw [List.eq_nil_iff_forall_not_mem]
      exact fun p hp => by simpa using hw p hp
    subst this; simp
  | cons t ths ih =>
    rw [List.nodup_cons] at hnd
    have hp := (List.filter_append_perm (fun p : Th × I => decide (p.1 = t)) w).symm
    refine (hp.map Prod.snd).trans ?_
    rw [List.map_append, List.flatMap_cons]
    refine List.Perm.append (List.Perm.refl _) ?_
    have h1 := ih hnd.2 (w.filter fun p => !decide (p.1 = t)) (by
      intro p hp
      obtain ⟨hp1, hp2⟩ := List.mem_filter.mp hp
      rcases List.mem_cons.mp (hw p hp1) with h | h
      · simp [h] at hp2
      · exact h)
    refine h1.trans (List.Perm.of_eq ?_)
    refine List.flatMap_congr fun t' ht' => ?_
    unfold streamOf
    rw [List.filter_filter]
    congr 1
    refine List.filter_congr fun p _ => ?_
    by_cases h : p.1 = t'
    · have : p.1 ≠ t := fun e => hnd.1 (e ▸ h ▸ ht')
      simp [h]; exact fun e => this (h.trans e)
    · simp [h]

end Implicit
